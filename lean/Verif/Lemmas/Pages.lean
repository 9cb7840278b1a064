import Verif.Spec.Pages
import Verif.Lemmas.IntText
import Verif.Lemmas.GenPages

/-!
Lemmas on genpages for arbitrary files.
-/

namespace H800

open Spec

theorem word1_or_blank (s : Str) : (∃ w, Word1 s w) ∨ Blank s := by
  cases h : firstWord s with
  | ok w => exact .inl ⟨w, firstWord_ok.1 h⟩
  | error e =>
    right
    unfold firstWord at h
    split at h
    · rename_i hw
      intro c hc
      by_contra hs
      have hne : s.dropWhile isSpace ≠ [] := by
        intro he
        have := List.takeWhile_append_dropWhile (p := isSpace) (l := s)
        rw [he, List.append_nil] at this
        rw [← this] at hc
        exact hs (mem_takeWhile_imp hc)
      have hh := List.head?_dropWhile_not isSpace s
      cases hd : s.dropWhile isSpace with
      | nil => exact hne hd
      | cons x r =>
        rw [hd] at hw hh
        have : isSpace x = false := by simpa using hh
        rw [List.takeWhile_cons_of_pos (by simp [this])] at hw
        cases hw
    · cases h

theorem pyWords_blank {s : Str} (h : Blank s) : pyWords s = [] := by
  have := wordsAux_blank h []
  rw [List.append_nil] at this
  unfold pyWords
  rw [this]
  rfl

theorem third_word_none {s : Str} (h : Blank s) :
    getE (pyWords (py "# Pages: " ++ s)) 2 = .error .indexError ∧
    getE (pyWords (py "# Filename: " ++ s)) 2 = .error .indexError := by
  have h1 : pyWords (py "# Pages: " ++ s) = py "#" :: py "Pages:" :: pyWords s := rfl
  have h2 : pyWords (py "# Filename: " ++ s) = py "#" :: py "Filename:" :: pyWords s := rfl
  rw [h1, h2, pyWords_blank h]
  exact ⟨rfl, rfl⟩

theorem pySplit_two {c : Char} {p q : Str} (h : c ∉ p) :
    (pySplit c (p ++ c :: q)).getD 0 [] = p ∧
    (pySplit c (p ++ c :: q)).getD 1 [] = splitFirst q c := by
  rw [pySplit_append h]
  refine ⟨rfl, ?_⟩
  rw [← pySplit_zero]
  rfl

/-- A number without a minus sign is not negative. -/
theorem intText_nat {s : Str} {n : Int} (h : IntText s n) (hn : '-' ∉ s) : ∃ k : Nat, n = k := by
  obtain ⟨a, sign, t, b, v, -, -, rfl, -, hs⟩ := h
  rcases hs with ⟨-, rfl⟩ | ⟨rfl, -⟩
  · exact ⟨v, rfl⟩
  · exact absurd (by simp) hn

theorem pagesOf_comment {line : Str} {a b : Nat} (h : PageComment line a b) :
    pagesOf line = .ok ((a : Int), (b : Int)) := by
  obtain ⟨rest, w, rfl, hw, h⟩ := h
  unfold pagesOf
  rw [third_word_pages hw, py_bind_ok]
  simp only [word_trimmed hw]
  rcases h with ⟨hm, hi, rfl⟩ | ⟨p, q, r, rfl, hp, hr, ha, hb⟩
  · rw [if_neg (by simpa using hm), pyInt_iff.2 hi, py_bind_ok]
    rfl
  · rw [if_pos (by simp), (pySplit_two hp).1, (pySplit_two hp).2, beforeFirst_unique hr,
      pyInt_iff.2 ha, py_bind_ok, pyInt_iff.2 hb, py_bind_ok]
    rfl

theorem pagesOf_cases (rest : Str) :
    (∃ a b, PageComment (py "# Pages: " ++ rest) a b) ∨
    pagesOf (py "# Pages: " ++ rest) = .error .valueError ∨
    pagesOf (py "# Pages: " ++ rest) = .error .indexError := by
  rcases word1_or_blank rest with ⟨w, hw⟩ | hb
  · by_cases hm : '-' ∈ w
    · obtain ⟨p, q, rfl, hp⟩ := exists_first hm
      have hb := beforeFirst '-' q
      by_cases h1 : ∃ a, IntText p a
      · obtain ⟨a, h1⟩ := h1
        obtain ⟨k, rfl⟩ := intText_nat h1 hp
        by_cases h2 : ∃ b, IntText (splitFirst q '-') b
        · obtain ⟨b, h2⟩ := h2
          obtain ⟨k', rfl⟩ := intText_nat h2 hb.1
          exact .inl ⟨k, k', rest, _, rfl, hw, .inr ⟨p, q, _, rfl, hp, hb, h1, h2⟩⟩
        · right; left
          unfold pagesOf
          rw [third_word_pages hw, py_bind_ok]
          simp only [word_trimmed hw]
          rw [if_pos (by simp), (pySplit_two hp).1, (pySplit_two hp).2, pyInt_iff.2 h1, py_bind_ok,
            pyInt_error (not_exists.1 h2)]
          rfl
      · right; left
        unfold pagesOf
        rw [third_word_pages hw, py_bind_ok]
        simp only [word_trimmed hw]
        rw [if_pos (by simp), (pySplit_two hp).1, pyInt_error (not_exists.1 h1)]
        rfl
    · by_cases h1 : ∃ a, IntText w a
      · obtain ⟨a, h1⟩ := h1
        obtain ⟨k, rfl⟩ := intText_nat h1 hm
        exact .inl ⟨k, k, rest, w, rfl, hw, .inl ⟨hm, h1, rfl⟩⟩
      · right; left
        unfold pagesOf
        rw [third_word_pages hw, py_bind_ok]
        simp only [word_trimmed hw]
        rw [if_neg (by simpa using hm), pyInt_error (not_exists.1 h1)]
        rfl
  · right; right
    unfold pagesOf
    rw [(third_word_none hb).1]
    rfl

theorem pageComment_unique {line : Str} {a b a' b' : Nat} (h : PageComment line a b)
    (h' : PageComment line a' b') : a = a' ∧ b = b' := by
  have := (pagesOf_comment h).symm.trans (pagesOf_comment h')
  simpa using this

theorem lastPages_unique {lines : List Str} {a b a' b' : Nat} (h : LastPages lines a b)
    (h' : LastPages lines a' b') : a = a' ∧ b = b' := by
  obtain ⟨pre, l, post, e, hl, hp⟩ := h
  obtain ⟨pre', l', post', e', hl', hp'⟩ := h'
  have hbl : Begins (py "# Pages: ") l := by obtain ⟨r, w, rfl, -⟩ := hl; exact ⟨r, rfl⟩
  have hbl' : Begins (py "# Pages: ") l' := by obtain ⟨r, w, rfl, -⟩ := hl'; exact ⟨r, rfl⟩
  have e2 := e.symm.trans e'
  rcases List.append_eq_append_iff.1 e2 with ⟨x, h1, h2⟩ | ⟨x, h1, h2⟩
  · cases x with
    | nil =>
      simp only [List.nil_append, List.cons.injEq] at h2
      obtain ⟨rfl, -⟩ := h2
      exact pageComment_unique hl hl'
    | cons y x =>
      rw [List.cons_append, List.cons.injEq] at h2
      exact absurd hbl' (hp l' (by rw [h2.2]; simp))
  · cases x with
    | nil =>
      simp only [List.nil_append, List.cons.injEq] at h2
      obtain ⟨rfl, -⟩ := h2
      exact pageComment_unique hl hl'
    | cons y x =>
      rw [List.cons_append, List.cons.injEq] at h2
      exact absurd hbl (hp' l (by rw [h2.2]; simp))

/-- The page comments: all are sound, or there is an error. -/
theorem pgFold_cases (lines : List Str) (p : Option (Int × Int)) :
    ((∀ l ∈ lines, Begins (py "# Pages: ") l → ∃ a b, PageComment l a b) ∧
      ((∀ l ∈ lines, ¬ Begins (py "# Pages: ") l) ∧ lines.foldlM pgStep p = .ok p ∨
        ∃ a b, LastPages lines a b ∧ lines.foldlM pgStep p = .ok (some ((a : Int), (b : Int))))) ∨
    ((¬ ∀ l ∈ lines, Begins (py "# Pages: ") l → ∃ a b, PageComment l a b) ∧
      ∃ e, lines.foldlM pgStep p = .error e ∧ (e = .valueError ∨ e = .indexError)) := by
  induction lines generalizing p with
  | nil => exact .inl ⟨by simp, .inl ⟨by simp, rfl⟩⟩
  | cons l ls ih =>
    rw [List.foldlM_cons, pgStep]
    by_cases hb : Begins (py "# Pages: ") l
    · rw [if_pos (hasPrefix_begins.2 hb)]
      obtain ⟨rest, rfl⟩ := hb
      have hbeg : Begins (py "# Pages: ") (py "# Pages: " ++ rest) := ⟨rest, rfl⟩
      rcases pagesOf_cases rest with ⟨a, b, hc⟩ | he
      · rw [pagesOf_comment hc, py_bind_ok, py_pure, py_bind_ok]
        rcases ih (some ((a : Int), (b : Int))) with ⟨h1, h2⟩ | ⟨h1, h2⟩
        · refine .inl ⟨?_, .inr ?_⟩
          · intro l hl hbl
            rcases List.mem_cons.1 hl with rfl | hl
            · exact ⟨a, b, hc⟩
            · exact h1 l hl hbl
          · rcases h2 with ⟨h2, h3⟩ | ⟨a', b', ⟨pre, l, post, rfl, h3⟩, h4⟩
            · exact ⟨a, b, ⟨[], _, ls, rfl, hc, h2⟩, h3⟩
            · exact ⟨a', b', ⟨_ :: pre, l, post, rfl, h3⟩, h4⟩
        · exact .inr ⟨fun h => h1 fun l hl => h l (List.mem_cons_of_mem _ hl), h2⟩
      · refine .inr ⟨fun h => ?_, ?_⟩
        · obtain ⟨a, b, hc⟩ := h _ List.mem_cons_self hbeg
          rw [pagesOf_comment hc] at he
          rcases he with he | he <;> cases he
        · rcases he with he | he <;> rw [he]
          · exact ⟨_, rfl, .inl rfl⟩
          · exact ⟨_, rfl, .inr rfl⟩
    · rw [if_neg fun h => hb (hasPrefix_begins.1 h), py_bind_ok]
      rcases ih p with ⟨h1, h2⟩ | ⟨h1, h2⟩
      · refine .inl ⟨?_, ?_⟩
        · intro l' hl hbl
          rcases List.mem_cons.1 hl with rfl | hl
          · exact absurd hbl hb
          · exact h1 l' hl hbl
        · rcases h2 with ⟨h2, h3⟩ | ⟨a', b', ⟨pre, l', post, rfl, h3⟩, h4⟩
          · refine .inl ⟨?_, h3⟩
            intro l' hl
            rcases List.mem_cons.1 hl with rfl | hl
            · exact hb
            · exact h2 l' hl
          · exact .inr ⟨a', b', ⟨_ :: pre, l', post, rfl, h3⟩, h4⟩
      · exact .inr ⟨fun h => h1 fun l hl => h l (List.mem_cons_of_mem _ hl), h2⟩

/-- The second part of `SoundComments`. -/
def SoundNames (lines : List Str) : Prop :=
  (∀ l ∈ lines, l.head? ≠ some 'L') → (∃ l ∈ lines, Begins (py "# Filename: ") l) →
    ∃ name, FileComment lines name

theorem logCard_exists {lines : List Str} (h : ∃ l ∈ lines, l.head? = some 'L') :
    ∃ line, LogCard lines line := by
  induction lines with
  | nil => obtain ⟨l, hl, -⟩ := h; cases hl
  | cons x ls ih =>
    by_cases hx : x.head? = some 'L'
    · exact ⟨x, [], ls, rfl, hx, by simp⟩
    · obtain ⟨l, hl, hh⟩ := h
      rcases List.mem_cons.1 hl with rfl | hl
      · exact absurd hh hx
      · obtain ⟨line, pre, post, rfl, h1, h2⟩ := ih ⟨l, hl, hh⟩
        refine ⟨line, x :: pre, post, rfl, h1, fun y hy => ?_⟩
        rcases List.mem_cons.1 hy with rfl | hy
        · exact hx
        · exact h2 y hy

theorem logName_card {lines : List Str} (h : ∃ l ∈ lines, l.head? = some 'L') :
    ∃ sec c8, LogName lines sec c8 := by
  obtain ⟨line, hl⟩ := logCard_exists h
  by_cases hb : Blank (columns line 8 9)
  · exact ⟨_, _, .inl ⟨line, hl, strip_stripped _, .inl ⟨hb, rfl⟩⟩⟩
  · refine ⟨_, strip (columns line 8 9), .inl ⟨line, hl, strip_stripped _, .inr ⟨?_, strip_stripped _⟩⟩⟩
    intro he
    obtain ⟨-, a, b, ha, hb', e⟩ := strip_stripped (columns line 8 9)
    apply hb
    rw [e, he]
    intro c hc
    simp only [List.append_nil, List.mem_append] at hc
    exact hc.elim (ha c) (hb' c)

theorem firstFile {lines : List Str} (h : ∃ l ∈ lines, Begins (py "# Filename: ") l) :
    ∃ pre rest post, lines = pre ++ (py "# Filename: " ++ rest) :: post ∧
      ∀ l ∈ pre, ¬ Begins (py "# Filename: ") l := by
  induction lines with
  | nil => obtain ⟨l, hl, -⟩ := h; cases hl
  | cons x ls ih =>
    by_cases hx : Begins (py "# Filename: ") x
    · obtain ⟨rest, rfl⟩ := hx
      exact ⟨[], rest, ls, rfl, by simp⟩
    · obtain ⟨l, hl, hh⟩ := h
      rcases List.mem_cons.1 hl with rfl | hl
      · exact absurd hh hx
      · obtain ⟨pre, rest, post, rfl, h2⟩ := ih ⟨l, hl, hh⟩
        refine ⟨x :: pre, rest, post, rfl, fun y hy => ?_⟩
        rcases List.mem_cons.1 hy with rfl | hy
        · exact hx
        · exact h2 y hy

/-- The log section: found; or none; or there is an error. -/
theorem secFold_cases (lines : List Str) :
    (∃ sec c8, SoundNames lines ∧ LogName lines sec c8) ∨
    (SoundNames lines ∧ (¬ ∃ sec c8, LogName lines sec c8) ∧
      lines.foldlM secStep (logOf lines) = .ok (none, .none)) ∨
    (¬ SoundNames lines ∧ lines.foldlM secStep (logOf lines) = .error .indexError) := by
  by_cases hL : ∃ l ∈ lines, l.head? = some 'L'
  · obtain ⟨sec, c8, h⟩ := logName_card hL
    obtain ⟨l, hl, hh⟩ := hL
    exact .inl ⟨sec, c8, fun h' => absurd hh (h' l hl), h⟩
  · have hn : ∀ l ∈ lines, l.head? ≠ some 'L' := fun l hl hh => hL ⟨l, hl, hh⟩
    by_cases hF : ∃ l ∈ lines, Begins (py "# Filename: ") l
    · obtain ⟨pre, rest, post, rfl, hpre⟩ := firstFile hF
      rcases word1_or_blank rest with ⟨w, hw⟩ | hb
      · have hf : FileComment (pre ++ (py "# Filename: " ++ rest) :: post) w :=
          ⟨pre, post, rest, rfl, hpre, hw⟩
        exact .inl ⟨_, _, fun _ _ => ⟨w, hf⟩, .inr ⟨hn, rfl, w, _, hf, beforeFirst '.' w, rfl⟩⟩
      · have herr : (pre ++ (py "# Filename: " ++ rest) :: post).foldlM secStep
            (logOf (pre ++ (py "# Filename: " ++ rest) :: post)) = .error .indexError := by
          rw [logOf_none hn, foldlM_append_ok (secFold_none hpre _), List.foldlM_cons, secStep, if_pos]
          · unfold sectionOf
            rw [(third_word_none hb).2]
            rfl
          · simp only [Option.isNone_none, Bool.true_and]
            exact hasPrefix_begins.2 ⟨rest, rfl⟩
        refine .inr (.inr ⟨fun h => ?_, herr⟩)
        obtain ⟨name, hf⟩ := h hn hF
        rw [logOf_none hn, secFold_file hf (beforeFirst '.' name)] at herr
        cases herr
    · refine .inr (.inl ⟨fun _ h => absurd h hF, ?_, ?_⟩)
      · rintro ⟨sec, c8, ⟨line, ⟨pre, post, rfl, h1, -⟩, -⟩ | ⟨-, -, name, p, ⟨pre, post, rest, rfl, -⟩, -⟩⟩
        · exact hn line (by simp) h1
        · exact hF ⟨_, by simp, rest, rfl⟩
      · rw [logOf_none hn]
        exact secFold_none (fun l hl hb => hF ⟨l, hl, hb⟩) _

theorem fold_error {lines : List Str} {s : Option Str × RVal} {p : Option (Int × Int)}
    (h : (∃ e, lines.foldlM secStep s = .error e ∧ e = .indexError) ∨
      ∃ e, lines.foldlM pgStep p = .error e ∧ (e = .valueError ∨ e = .indexError))
    (hs : ∀ e, lines.foldlM secStep s = .error e → e = .indexError)
    (hp : ∀ e, lines.foldlM pgStep p = .error e → (e = .valueError ∨ e = .indexError)) :
    ∃ e, lines.foldlM pagesStep ⟨s.1, s.2, p⟩ = .error e ∧ (e = .valueError ∨ e = .indexError) := by
  induction lines generalizing s p with
  | nil => rcases h with ⟨e, h, -⟩ | ⟨e, h, -⟩ <;> cases h
  | cons l ls ih =>
    rw [List.foldlM_cons] at h hs hp
    rw [List.foldlM_cons, pagesStep_split]
    rw [List.foldlM_cons] at h
    cases h1 : secStep s l with
    | error e =>
      rw [h1] at hs
      exact ⟨e, rfl, .inr (hs e rfl)⟩
    | ok s1 =>
      rw [h1, py_bind_ok] at h hs
      cases h2 : pgStep p l with
      | error e =>
        rw [h2] at hp
        exact ⟨e, rfl, hp e rfl⟩
      | ok p1 =>
        rw [h2, py_bind_ok] at h hp
        simp only [py_bind_ok, py_pure]
        exact ih h hs hp

end H800
