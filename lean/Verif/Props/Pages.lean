import Verif.Lemmas.Pages
import Verif.Props.GenArgs
import Verif.Props.GenPages

/-!
C169: genpages for every file and every command line.
-/

namespace H800

open Spec

theorem genpages_writes (fs : FileSystem) (fuel : Nat) (file text : Str) (args : List Str)
    (hf : fs file = some text) (sec : Str) (v : RVal) (a b : Nat) (hab : a ≤ b)
    (hv : pagesInfo fs fuel (readlines text) = .ok ⟨some sec, v, some ((a : Int), (b : Int))⟩) :
    ∃ (fs' : FileSystem) (blocks : List Str), genpages fs fuel (file :: args) = (fs', .ok ()) ∧
      fs' file = some (text ++ py "\nL      " ++ v.toStr ++ sec ++ py "\n" ++ blocks.flatten) ∧
      (∀ g, g ≠ file → fs' g = fs g) ∧ blocks.length = b + 1 - a ∧
      ∀ k t, blocks[k]? = some t → PageBlock sec v.toStr (a + k) (k + 1) t := by
  refine ⟨writeFile fs file (text ++ (pagesLines v sec a b).flatten), (List.range (b + 1 - a)).map
    (fun k : Nat => (pageLines v sec a ((a : Int) + k)).flatten), ?_⟩
  unfold genpages
  simp only [hf, hv]
  rw [if_neg (by omega)]
  refine ⟨rfl, ?_, fun g hg => by simp [writeFile, hg], by simp, ?_⟩
  · have hr : pyRange (a : Int) ((b : Int) + 1) =
        (List.range (b + 1 - a)).map fun k : Nat => (a : Int) + k := by
      unfold pyRange
      rw [show ((b : Int) + 1 - a).toNat = b + 1 - a by omega]
    simp only [writeFile, if_true, pagesLines, hr, List.flatten_append, flatten_flatMap, List.map_map]
    simp [Function.comp_def]
  · intro k t hk
    rw [List.getElem?_map] at hk
    obtain ⟨x, hx, rfl⟩ := Option.map_eq_some_iff.1 hk
    have := List.getElem?_eq_some_iff.1 hx
    obtain ⟨_, rfl⟩ := this
    rw [List.getElem_range]
    exact pageLines_block v sec a k

/-- What genpages finds out in a file: an error, or all there is. -/
theorem pagesInfo_cases (fs : FileSystem) (fuel : Nat) (lines : List Str) :
    (¬ SoundComments lines ∧
      ∃ e, pagesInfo fs fuel lines = .error e ∧ (e = .valueError ∨ e = .indexError)) ∨
    SoundComments lines ∧ ∃ sec v p, pagesInfo fs fuel lines = .ok ⟨sec, v, p⟩ ∧
      ((sec = none ∧ ¬ ∃ sec c8, LogName lines sec c8) ∨
        ∃ s, sec = some s ∧ LogName lines s v.toStr) ∧
      ((p = none ∧ ∀ l ∈ lines, ¬ Begins (py "# Pages: ") l) ∨
        ∃ a b : Nat, p = some ((a : Int), (b : Int)) ∧ LastPages lines a b) := by
  rw [pagesInfo_eq]
  have hsec := secFold_cases lines
  have hpg := pgFold_cases lines none
  have serr : ∀ e, lines.foldlM secStep (logOf lines) = .error e → e = .indexError := by
    intro e he
    rcases hsec with ⟨sec, c8, -, h⟩ | ⟨-, -, h⟩ | ⟨-, h⟩
    · obtain ⟨v, h, -⟩ := secFold_log h
      rw [h] at he; cases he
    · rw [h] at he; cases he
    · rw [h] at he; cases he; rfl
  have perr : ∀ e, lines.foldlM pgStep none = .error e → (e = .valueError ∨ e = .indexError) := by
    intro e he
    rcases hpg with ⟨-, ⟨-, h⟩ | ⟨a, b, -, h⟩⟩ | ⟨-, e', h, h'⟩
    · rw [h] at he; cases he
    · rw [h] at he; cases he
    · rw [h] at he; cases he; exact h'
  by_cases hs : SoundNames lines
  · rcases hpg with ⟨h1, h2⟩ | ⟨h1, h2⟩
    · right
      refine ⟨⟨h1, hs⟩, ?_⟩
      obtain ⟨sec, v, hv, hl⟩ : ∃ sec v, lines.foldlM secStep (logOf lines) = .ok (sec, v) ∧
          ((sec = none ∧ ¬ ∃ sec c8, LogName lines sec c8) ∨
            ∃ s, sec = some s ∧ LogName lines s v.toStr) := by
        rcases hsec with ⟨sec, c8, -, h⟩ | ⟨-, h, h'⟩ | ⟨h, -⟩
        · obtain ⟨v, hv, h8⟩ := secFold_log h
          exact ⟨_, v, hv, .inr ⟨sec, rfl, by rw [h8]; exact h⟩⟩
        · exact ⟨_, _, h', .inl ⟨rfl, h⟩⟩
        · exact absurd hs h
      rcases h2 with ⟨h2, h3⟩ | ⟨a, b, h2, h3⟩
      · exact ⟨sec, v, none, fold_split hv h3, hl, .inl ⟨rfl, h2⟩⟩
      · exact ⟨sec, v, _, fold_split hv h3, hl, .inr ⟨a, b, rfl, h2⟩⟩
    · left
      exact ⟨fun h => h1 h.1, fold_error (.inr h2) serr perr⟩
  · left
    refine ⟨fun h => hs h.2, fold_error (.inl ?_) serr perr⟩
    rcases hsec with ⟨sec, c8, h, -⟩ | ⟨h, -⟩ | ⟨-, h⟩
    · exact absurd h hs
    · exact absurd h hs
    · exact ⟨_, h, rfl⟩

theorem logName_unique {lines : List Str} {sec c8 sec' c8' : Str} (h : LogName lines sec c8)
    (h' : LogName lines sec' c8') : sec = sec' ∧ c8 = c8' := by
  obtain ⟨v, hv, rfl⟩ := secFold_log h
  obtain ⟨v', hv', rfl⟩ := secFold_log h'
  rw [hv] at hv'
  cases hv'
  exact ⟨rfl, rfl⟩

/-- C169: without an argument, or if there is no such file, genpages exits. If the comments of the file
are not sound, int or the missing word raise an error. Otherwise it exits if there is no log section; a
variable is unbound if there is no page comment; it exits if the pages of the last page comment are in
the wrong order; and if they are in order it appends the log card and a block for every page. Whenever
it does not get to the end, no file has changed. -/
theorem C169_pages (fs : FileSystem) (fuel : Nat) (file text : Str) (args : List Str) :
    genpages fs fuel [] = (fs, .error .systemExit) ∧
    (fs file = none → genpages fs fuel (file :: args) = (fs, .error .systemExit)) ∧
    (fs file = some text →
      (¬ SoundComments (readlines text) → ∃ e, genpages fs fuel (file :: args) = (fs, .error e) ∧
        (e = .valueError ∨ e = .indexError)) ∧
      (SoundComments (readlines text) →
        ((¬ ∃ sec c8, LogName (readlines text) sec c8) →
          genpages fs fuel (file :: args) = (fs, .error .systemExit)) ∧
        ∀ sec c8, LogName (readlines text) sec c8 →
          ((∀ l ∈ readlines text, ¬ Begins (py "# Pages: ") l) →
            genpages fs fuel (file :: args) = (fs, .error .unboundLocal)) ∧
          ∀ a b, LastPages (readlines text) a b →
            (b < a → genpages fs fuel (file :: args) = (fs, .error .systemExit)) ∧
            (a ≤ b → ∃ (fs' : FileSystem) (blocks : List Str),
              genpages fs fuel (file :: args) = (fs', .ok ()) ∧
              fs' file = some (text ++ py "\nL      " ++ c8 ++ sec ++ py "\n" ++ blocks.flatten) ∧
              (∀ g, g ≠ file → fs' g = fs g) ∧ blocks.length = b + 1 - a ∧
              ∀ k t, blocks[k]? = some t → PageBlock sec c8 (a + k) (k + 1) t))) := by
  refine ⟨rfl, fun h => ?_, fun hf => ?_⟩
  · unfold genpages
    simp only [h]
  rcases pagesInfo_cases fs fuel (readlines text) with ⟨h1, e, h2, h3⟩ | ⟨h1, sec, v, p, h2, h3, h4⟩
  · refine ⟨fun _ => ⟨e, ?_, h3⟩, fun h => absurd h h1⟩
    unfold genpages
    simp only [hf, h2]
  · refine ⟨fun h => absurd h1 h, fun _ => ⟨fun hn => ?_, fun sec' c8 hl => ?_⟩⟩
    · rcases h3 with ⟨rfl, -⟩ | ⟨s, -, h3⟩
      · unfold genpages
        simp only [hf, h2]
      · exact absurd ⟨_, _, h3⟩ hn
    · rcases h3 with ⟨-, h3⟩ | ⟨s, rfl, h3⟩
      · exact absurd ⟨_, _, hl⟩ h3
      obtain ⟨rfl, rfl⟩ := logName_unique h3 hl
      refine ⟨fun hn => ?_, fun a b hp => ?_⟩
      · rcases h4 with ⟨rfl, -⟩ | ⟨a, b, -, ⟨pre, l, post, e, ⟨r, w, rfl, -⟩, -⟩⟩
        · unfold genpages
          simp only [hf, h2]
        · exact absurd ⟨r, rfl⟩ (hn _ (by rw [e]; simp))
      · rcases h4 with ⟨-, hn⟩ | ⟨a', b', rfl, h4⟩
        · obtain ⟨pre, l, post, e, ⟨r, w, rfl, -⟩, -⟩ := hp
          exact absurd ⟨r, rfl⟩ (hn _ (by rw [e]; simp))
        obtain ⟨rfl, rfl⟩ := lastPages_unique h4 hp
        refine ⟨fun hab => ?_, fun hab => genpages_writes fs fuel file text args hf _ v _ _ hab h2⟩
        unfold genpages
        simp only [hf, h2]
        rw [if_pos (by omega)]

/-- C169: the log section, its column 8 and the pages are determined by the file. -/
theorem C169_unique {lines : List Str} {sec c8 sec' c8' : Str} {a b a' b' : Nat} :
    (LogName lines sec c8 → LogName lines sec' c8' → sec = sec' ∧ c8 = c8') ∧
    (LastPages lines a b → LastPages lines a' b' → a = a' ∧ b = b') :=
  ⟨logName_unique, lastPages_unique⟩

/-- C169: the exit status of genpages. -/
theorem C169_status (fs : FileSystem) (fuel : Nat) (argv : List Str) :
    StatusIs NO_OPTS (fun _ args => PagesMisuse fs args) (fun _ args => PagesWell fs args) argv
      (genpagesStatus fs fuel argv) := by
  have hg := C153_good.2.2.2.2.2.2
  refine status_is hg ?_ fun os args hm hh => ?_
  · intro e he
    unfold genpagesStatus
    rw [he]
  rcases means_values hg hm with ⟨e, -⟩ | ⟨-, v, e, hv⟩
  · exact absurd e hh
  unfold genpagesStatus
  rw [e]
  simp only
  cases args with
  | nil =>
    exact ⟨fun _ => rfl, fun h => absurd (.inl rfl) h⟩
  | cons file rest =>
    cases hf : fs file with
    | none =>
      refine ⟨fun _ => ?_, fun h => absurd (.inr ⟨file, rfl, .inl hf⟩) h⟩
      rw [(C169_pages fs fuel file [] rest).2.1 hf]
    | some text =>
      have h := (C169_pages fs fuel file text rest).2.2 hf
      by_cases hs : SoundComments (readlines text)
      · have h := h.2 hs
        by_cases hl : ∃ sec c8, LogName (readlines text) sec c8
        · obtain ⟨sec, c8, hl⟩ := hl
          have h := h.2 sec c8 hl
          by_cases hp : ∃ a b, LastPages (readlines text) a b
          · obtain ⟨a, b, hp⟩ := hp
            have h := h.2 a b hp
            by_cases hab : b < a
            · rw [h.1 hab]
              exact ⟨fun _ => rfl, fun hu => absurd
                (.inr ⟨file, rfl, .inr ⟨text, hf, hs, .inr ⟨a, b, hp, hab⟩⟩⟩) hu⟩
            · obtain ⟨fs', blocks, h1, -⟩ := h.2 (by omega)
              rw [h1]
              refine ⟨?_, fun _ => ⟨fun _ => rfl, fun hw => absurd
                ⟨file, text, sec, c8, a, b, rfl, hf, hs, hl, hp, by omega⟩ hw⟩⟩
              rintro (hu | ⟨f, e1, hu | ⟨t, e2, -, hu | ⟨a', b', hp', hab'⟩⟩⟩)
              · cases hu
              · cases e1; rw [hf] at hu; cases hu
              · cases e1; rw [hf] at e2; cases e2; exact absurd ⟨sec, c8, hl⟩ hu
              · cases e1; rw [hf] at e2; cases e2
                obtain ⟨rfl, rfl⟩ := lastPages_unique hp hp'
                exact absurd hab' hab
          · have hn : ∀ l ∈ readlines text, ¬ Begins (py "# Pages: ") l := by
              rcases pgFold_cases (readlines text) none with ⟨-, ⟨h1, -⟩ | ⟨a, b, h1, -⟩⟩ | ⟨h1, -⟩
              · exact h1
              · exact absurd ⟨a, b, h1⟩ hp
              · exact absurd hs.1 h1
            rw [h.1 hn]
            refine ⟨?_, fun _ => ⟨?_, fun _ => rfl⟩⟩
            · rintro (hu | ⟨f, e1, hu | ⟨t, e2, -, hu | ⟨a', b', hp', hab'⟩⟩⟩)
              · cases hu
              · cases e1; rw [hf] at hu; cases hu
              · cases e1; rw [hf] at e2; cases e2; exact absurd ⟨sec, c8, hl⟩ hu
              · cases e1; rw [hf] at e2; cases e2; exact absurd ⟨a', b', hp'⟩ hp
            · rintro ⟨f, t, sec', c8', a', b', e1, e2, -, -, hp', -⟩
              cases e1; rw [hf] at e2; cases e2
              exact absurd ⟨a', b', hp'⟩ hp
        · rw [h.1 hl]
          exact ⟨fun _ => rfl, fun hu => absurd (.inr ⟨file, rfl, .inr ⟨text, hf, hs, .inl hl⟩⟩) hu⟩
      · obtain ⟨e, h1, h2⟩ := h.1 hs
        rw [h1]
        refine ⟨?_, fun _ => ⟨?_, fun _ => by rcases h2 with rfl | rfl <;> rfl⟩⟩
        · rintro (hu | ⟨f, e1, hu | ⟨t, e2, hs', -⟩⟩)
          · cases hu
          · cases e1; rw [hf] at hu; cases hu
          · cases e1; rw [hf] at e2; cases e2; exact absurd hs' hs
        · rintro ⟨f, t, sec', c8', a', b', e1, e2, hs', -⟩
          cases e1; rw [hf] at e2; cases e2
          exact absurd hs' hs

/-- A file with this text. -/
def textFs (text : Str) : FileSystem := fun f => if f = py "A.arg" then some text else none

/-- C169: a second dash, a sign and an underscore in a page comment; no name; no pages; pages in the
wrong order. -/
example : PageComment (py "# Pages:  +7-1_0-x y\n") 7 10 ∧
    genpagesStatus (textFs (py "L      @T\n# Pages:  +7-1_0-x y\n")) 5 [py "A.arg"] = 0 ∧
    genpagesStatus (textFs (py "# Filename: \n# Pages: 7\n")) 5 [py "A.arg"] = 1 ∧
    genpagesStatus (textFs (py "L      @T\n# Filename: \n")) 5 [py "A.arg"] = 1 ∧
    genpagesStatus (textFs (py "L      @T\n# Pages: 7-6\n")) 5 [py "A.arg"] = 2 ∧
    genpagesStatus (textFs (py "L      @T\n# Pages: x\n# Pages: 7\n")) 5 [py "A.arg"] = 1 ∧
    genpagesStatus (textFs (py "# Pages: 7\n")) 5 [py "A.arg"] = 2 ∧
    genpagesStatus (textFs (py "# Pages: 7\n")) 5 [py "-h"] = 0 := by
  refine ⟨⟨py " +7-1_0-x y\n", py "+7-1_0-x", rfl, firstWord_ok.1 (by decide), .inr ⟨py "+7",
    py "1_0-x", py "1_0", rfl, by decide, ⟨by decide, .inr ⟨py "x", rfl⟩⟩, pyInt_iff.1 (by decide),
    pyInt_iff.1 (by decide)⟩⟩, ?_, ?_, ?_, ?_, ?_, ?_, ?_⟩ <;> decide +kernel

end H800
