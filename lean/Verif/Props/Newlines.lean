import Verif.Spec.Newlines
import Verif.Props.Idle
import Verif.Props.Text

/-! Property C200: the ends of lines in the files. -/

namespace H800

open Spec

/-! ### Reading -/

theorem universal_append {l : Str} (h : '\r' ∉ l) (s : Str) :
    universal (l ++ s) = l ++ universal s := by
  induction l with
  | nil => rfl
  | cons c l ih =>
    simp only [List.mem_cons, not_or] at h
    rw [List.cons_append, universal, if_neg (fun e => h.1 e.symm), ih h.2, List.cons_append]

theorem universal_plain {l : Str} (h : '\r' ∉ l) : universal l = l := by
  have := universal_append h []
  simpa [universal] using this

theorem universal_end {e : Str} (h : LineEnd e) {rest : Str}
    (hr : e = ['\r'] → rest.head? ≠ some '\n') : universal (e ++ rest) = '\n' :: universal rest := by
  rcases h with rfl | rfl | rfl
  · simp [universal]
  · simp [universal]
  · have := hr rfl
    simp [universal, this]

theorem universal_return (s : Str) : '\r' ∉ universal s := by
  induction s with
  | nil => simp [universal]
  | cons c s ih =>
    rw [universal]
    split
    · split
      · exact ih
      · simpa using ih
    · rename_i hc
      simp only [List.mem_cons, not_or]
      exact ⟨fun e => hc e.symm, ih⟩

/-- C200: the lines read from a file are those stored, each ended by a newline, in whichever way it is
ended in the file. -/
theorem C200_lines {stored : Str} {ls : List Str} (h : StoredLines stored ls) :
    readlines (universal stored) = ls := by
  induction h with
  | nil => rfl
  | last hne hn hr =>
    rename_i l
    rw [universal_plain hr]
    exact linesOf_readlines (.last hne hn)
  | line hn hr he hend _ ih =>
    rw [List.append_assoc, universal_append hr, universal_end he hend, readlines_append hn, ih]

/-- C200: every file has lines, however they are ended. -/
theorem C200_total (stored : Str) : ∃ ls, StoredLines stored ls := by
  have key : ∀ n (stored : Str), stored.length ≤ n → ∃ ls, StoredLines stored ls := by
    intro n
    induction n with
    | zero =>
      intro stored h
      rw [List.length_eq_zero_iff.1 (Nat.le_zero.1 h)]
      exact ⟨_, .nil⟩
    | succ n ih =>
      intro stored h
      cases stored with
      | nil => exact ⟨_, .nil⟩
      | cons c s =>
        simp only [List.length_cons, Nat.add_le_add_iff_right] at h
        by_cases hc : c = '\r'
        · subst hc
          by_cases hs : s.head? = some '\n'
          · cases s with
            | nil => cases hs
            | cons d s =>
              cases hs
              obtain ⟨ls, hl⟩ := ih s (by simp at h; omega)
              exact ⟨_, .line (l := []) (e := ['\r', '\n']) (by simp) (by simp) (Or.inr (Or.inl rfl))
                (by simp) hl⟩
          · obtain ⟨ls, hl⟩ := ih s h
            exact ⟨_, .line (l := []) (e := ['\r']) (by simp) (by simp) (Or.inr (Or.inr rfl))
              (fun _ => hs) hl⟩
        · obtain ⟨ls, hl⟩ := ih s h
          by_cases hn : c = '\n'
          · subst hn
            exact ⟨_, .line (l := []) (e := ['\n']) (by simp) (by simp) (Or.inl rfl) (by simp) hl⟩
          · have hn' : ¬ '\n' = c := fun e => hn e.symm
            have hc' : ¬ '\r' = c := fun e => hc e.symm
            cases hl with
            | nil => exact ⟨_, .last (l := [c]) (by simp) (by simpa using hn') (by simpa using hc')⟩
            | last h1 h2 h3 => exact ⟨_, .last (by simp) (by simp [hn', h2]) (by simp [hc', h3])⟩
            | @line l e rest ls h1 h2 h3 h4 h5 =>
              exact ⟨_, .line (l := c :: l) (by simp [hn', h1]) (by simp [hc', h2]) h3 h4 h5⟩
  exact key _ stored (le_refl _)

theorem flatten_readlines (text : Str) : (readlines text).flatten = text := by
  have := readlines_linesOf text
  generalize readlines text = ls at this
  induction this with
  | nil => rfl
  | last => simp
  | line _ _ ih => simp [ih]

/-- C200: two file systems whose files have the same lines, ended in any ways, are read alike. So all
that the tools print, and how they end, is the same for both: `tool` stands for any of the functions
of the model that read files. -/
theorem C200_same {disk disk' : FileSystem} (h : SameStored disk disk') {α : Type}
    (tool : FileSystem → α) : tool (textFiles disk') = tool (textFiles disk) := by
  congr 1
  funext f
  unfold textFiles
  rcases h f with ⟨h1, h2⟩ | ⟨a, b, ls, h1, h2, ha, hb⟩
  · rw [h1, h2]
  · rw [h1, h2, Option.map_some, Option.map_some, ← flatten_readlines (universal a),
      ← flatten_readlines (universal b), C200_lines ha, C200_lines hb]

/-! ### Writing -/

theorem universal_join {a b : Str} (h : a.getLast? = some '\r' → b.head? ≠ some '\n') :
    universal (a ++ b) = universal a ++ universal b := by
  induction a with
  | nil => rfl
  | cons c a ih =>
    have ih := ih (fun ha => h (by
      cases a with
      | nil => cases ha
      | cons d a => simpa using ha))
    rw [List.cons_append, universal, universal, ih]
    by_cases hc : c = '\r'
    · rw [if_pos hc, if_pos hc]
      have : (a ++ b).head? = some '\n' ↔ a.head? = some '\n' := by
        cases a with
        | nil =>
          simp only [List.nil_append, List.head?_nil, reduceCtorEq, iff_false]
          exact h (by rw [hc]; rfl)
        | cons d a => rfl
      by_cases hb : a.head? = some '\n'
      · rw [if_pos hb, if_pos (this.2 hb)]
      · rw [if_neg hb, if_neg (fun e => hb (this.1 e)), List.cons_append]
    · rw [if_neg hc, if_neg hc, List.cons_append]

theorem universal_joined {a b : Str} (h : a.getLast? = some '\r') :
    universal (a ++ '\n' :: b) = universal a ++ universal b := by
  obtain ⟨a, rfl⟩ : ∃ x, a = x ++ ['\r'] := List.getLast?_eq_some_iff.1 h
  rw [List.append_assoc, universal_join (a := a) (by simp), universal_join (a := a) (by simp),
    List.append_assoc]
  congr 1

theorem pyStr_return (n : Int) : '\r' ∉ pyStr n := by
  have hn : ∀ n : Nat, '\r' ∉ numeral 10 n := fun n h =>
    absurd ((numeral_decimal n).2.1 _ h) (by decide)
  unfold pyStr
  split
  · simp only [List.mem_cons, not_or]
    exact ⟨by decide, hn _⟩
  · exact hn _

theorem sectionOf_return {line s : Str} (h : sectionOf line = .ok s) : '\r' ∉ s := by
  unfold sectionOf at h
  cases hg : getE (pyWords line) 2 with
  | error e => rw [hg] at h; cases h
  | ok w =>
    rw [hg] at h
    simp only [py_bind_ok, py_pure, Except.ok.injEq] at h
    have hw : w ∈ pyWords line := by
      unfold getE at hg
      split at hg
      · rename_i x hx
        cases hg
        exact List.mem_of_getElem? hx
      · cases hg
    have hn : '\r' ∉ strip w := by
      intro hm
      have := wordsAux_mem [] line (by simp) w hw _ (strip_mem hm)
      exact absurd this (by decide)
    have hn2 : '\r' ∉ (if (strip w).contains '.' then splitFirst (strip w) '.' else strip w) := by
      split
      · intro hm
        unfold splitFirst at hm
        exact hn ((List.takeWhile_sublist _).mem hm)
      · exact hn
    intro hm
    rw [← h, List.mem_map] at hm
    obtain ⟨c, hc, he⟩ := hm
    split at he
    · exact absurd he (by decide)
    · rw [he] at hc; exact hn2 hc

theorem pagesInfo_return {fs : FileSystem} {fuel : Nat} {lines : List Str} {st : PagesState}
    (hl : ∀ l ∈ lines, '\r' ∉ l) (h : pagesInfo fs fuel lines = .ok st) :
    (∀ s, st.section_ = some s → '\r' ∉ s) ∧ '\r' ∉ st.col8.toStr := by
  rw [pagesInfo_eq] at h
  have h0 : (∀ s, (logOf lines).1 = some s → '\r' ∉ s) ∧ '\r' ∉ (logOf lines).2.toStr := by
    clear h
    induction lines with
    | nil => exact ⟨fun s e => (nomatch e), by decide⟩
    | cons l ls ih =>
      rw [logOf]
      split
      · refine ⟨fun s hs hm => ?_, fun hm => ?_⟩
        · cases hs
          have := strip_mem hm
          unfold slice remove at this
          exact hl l List.mem_cons_self
            (List.mem_filter.1 (List.mem_of_mem_drop (List.mem_of_mem_take this))).1
        · unfold val at hm
          cases he : PunchCard.entry (columns l 8 9) with
          | none =>
            rw [he] at hm
            exact absurd (show '\r' ∈ py "None" from hm) (by decide)
          | some t =>
            rw [he] at hm
            obtain ⟨rfl, -⟩ := entry_some.1 he
            have := strip_mem hm
            unfold columns at this
            exact hl l List.mem_cons_self (List.mem_of_mem_drop (List.mem_of_mem_take this))
      · exact ih fun l hm => hl l (List.mem_cons_of_mem _ hm)
  have key : ∀ (ls : List Str) (s : Option Str × RVal) (p : Option (Int × Int)),
      ls.foldlM pagesStep ⟨s.1, s.2, p⟩ = .ok st →
      ((∀ x, s.1 = some x → '\r' ∉ x) ∧ '\r' ∉ s.2.toStr) →
      (∀ x, st.section_ = some x → '\r' ∉ x) ∧ '\r' ∉ st.col8.toStr := by
    intro ls
    induction ls with
    | nil => intro s p h h0; cases h; exact h0
    | cons l ls ih =>
      intro s p h h0
      rw [List.foldlM_cons, pagesStep_split] at h
      cases h1 : secStep s l with
      | error e => rw [h1] at h; cases h
      | ok s1 =>
        cases h2 : pgStep p l with
        | error e => rw [h1, h2] at h; cases h
        | ok p1 =>
          rw [h1, h2] at h
          refine ih s1 p1 h ?_
          unfold secStep at h1
          split at h1
          · cases hx : sectionOf l with
            | error e => rw [hx] at h1; cases h1
            | ok x =>
              rw [hx] at h1
              cases h1
              refine ⟨fun y hy => ?_, (by decide : '\r' ∉ py "@")⟩
              cases hy
              exact sectionOf_return hx
          · cases h1; exact h0
  exact key lines _ none h h0

theorem pagesLines_return {v : RVal} {sec : Str} (hs : '\r' ∉ sec) (hv : '\r' ∉ v.toStr)
    (start end_ : Int) :
    ∃ app, '\r' ∉ app ∧ (pagesLines v sec start end_).flatten = '\n' :: app := by
  refine ⟨_, ?_, rfl⟩
  show '\r' ∉ List.flatten _
  simp only [List.mem_flatten, not_exists, not_and]
  intro l hl
  rcases List.mem_cons.1 hl with rfl | hl
  · simp only [List.mem_append, not_or]
    exact ⟨⟨⟨by decide, hv⟩, hs⟩, by decide⟩
  · obtain ⟨n, -, hl⟩ := List.mem_flatMap.1 hl
    have hpad : '\r' ∉ padLeft ' ' 4 (pyStr (n - start + 1)) := by
      unfold padLeft
      simp only [List.mem_append, not_or, List.mem_replicate]
      exact ⟨fun e => absurd e.2 (by decide), pyStr_return _⟩
    have hpr : '\r' ∉ padRight 72 sec := by
      unfold padRight
      simp only [List.mem_append, not_or, List.mem_replicate]
      exact ⟨hs, fun e => absurd e.2 (by decide)⟩
    unfold pageLines at hl
    simp only [List.mem_cons, List.not_mem_nil, or_false] at hl
    rcases hl with rfl | rfl | rfl | rfl
    · decide
    · simp only [List.mem_append, not_or]
      exact ⟨⟨by decide, pyStr_return n⟩, by decide⟩
    · simp only [List.mem_append, not_or]
      exact ⟨⟨⟨⟨⟨⟨⟨by decide, hv⟩, hpr⟩, by decide⟩, hpad⟩, by decide⟩, hpad⟩, by decide⟩
    · decide

theorem textFiles_write (disk : FileSystem) (name stored : Str) :
    textFiles (writeFile disk name stored) = writeFile (textFiles disk) name (universal stored) := by
  funext f
  unfold textFiles writeFile
  split <;> rfl

theorem lines_return {text l : Str} (h : l ∈ readlines (universal text)) : '\r' ∉ l := by
  intro hm
  have : '\r' ∈ (readlines (universal text)).flatten := List.mem_flatten.2 ⟨l, h, hm⟩
  rw [flatten_readlines] at this
  exact universal_return text this

/-- C200: genpages ends in the same way however the lines of the files are ended, and what is read from
the files afterwards is what was read before and the lines appended. Only if the file ends with a
carriage return the first newline appended is read together with it, so that there is no blank line
before the log card. -/
theorem C200_genpages (disk : FileSystem) (fuel : Nat) (args : List Str) :
    (genpagesDisk disk fuel args).2 = (genpages (textFiles disk) fuel args).2 ∧
    ((∀ file rest stored, args = file :: rest → disk file = some stored →
        stored.getLast? ≠ some '\r') →
      textFiles (genpagesDisk disk fuel args).1 = (genpages (textFiles disk) fuel args).1) ∧
    ∀ file rest stored, args = file :: rest → disk file = some stored →
      stored.getLast? = some '\r' → (genpagesDisk disk fuel args).2 = .ok () →
      ∃ app, (genpages (textFiles disk) fuel args).1 =
          writeFile (textFiles disk) file (universal stored ++ '\n' :: app) ∧
        textFiles (genpagesDisk disk fuel args).1 =
          writeFile (textFiles disk) file (universal stored ++ app) := by
  cases args with
  | nil => exact ⟨rfl, fun _ => rfl, fun file rest stored h => (nomatch h)⟩
  | cons file args =>
    unfold genpagesDisk genpages
    simp only
    cases hd : disk file with
    | none =>
      have : textFiles disk file = none := by unfold textFiles; rw [hd]; rfl
      rw [this]
      refine ⟨rfl, fun _ => rfl, ?_⟩
      intro file' rest stored h hs
      cases h
      rw [hd] at hs
      cases hs
    | some stored =>
      have : textFiles disk file = some (universal stored) := by unfold textFiles; rw [hd]; rfl
      rw [this]
      simp only
      have fail : ∀ e : PyErr, (Except.error e : Py Unit) = .error e ∧
          ((∀ file_1 rest stored', file :: args = file_1 :: rest → disk file_1 = some stored' →
            stored'.getLast? ≠ some '\r') → textFiles disk = textFiles disk) ∧
          ∀ file_1 rest stored', file :: args = file_1 :: rest → disk file_1 = some stored' →
            stored'.getLast? = some '\r' → (Except.error e : Py Unit) = .ok () →
            ∃ app, textFiles disk =
                writeFile (textFiles disk) file_1 (universal stored' ++ '\n' :: app) ∧
              textFiles disk = writeFile (textFiles disk) file_1 (universal stored' ++ app) :=
        fun e => ⟨rfl, fun _ => rfl, fun _ _ _ _ _ _ h => by cases h⟩
      cases hi : pagesInfo (textFiles disk) fuel (readlines (universal stored)) with
      | error e => exact fail e
      | ok st =>
        simp only
        obtain ⟨hsec, hcol⟩ := pagesInfo_return (fun l hl => lines_return hl) hi
        cases hs : st.section_ with
        | none => exact fail _
        | some sec =>
          simp only
          cases hp : st.pages with
          | none => exact fail _
          | some p =>
            obtain ⟨start, end_⟩ := p
            simp only
            split
            · exact fail _
            · obtain ⟨app, happ, e⟩ := pagesLines_return (hsec sec hs) hcol start end_
              rw [e]
              refine ⟨rfl, fun h => ?_, ?_⟩
              · rw [textFiles_write, universal_join fun hc => absurd hc (h file args stored rfl hd),
                  universal_plain (l := '\n' :: app)]
                simp only [List.mem_cons, not_or]
                exact ⟨by decide, happ⟩
              · intro file' rest stored' h1 h2 h3 _
                cases h1
                rw [hd] at h2
                cases h2
                refine ⟨app, rfl, ?_⟩
                rw [textFiles_write, universal_joined h3, universal_plain happ]

theorem expand_return {disk : FileSystem} {file : Str} {i : Nat} {ls : List Str} {out : List Src}
    (h : Expand (textFiles disk) file i ls out) (hf : '\r' ∉ file) (hl : ∀ l ∈ ls, '\r' ∉ l) :
    ∀ s ∈ out, '\r' ∉ s.file ∧ '\r' ∉ s.text := by
  induction h with
  | nil => simp
  | comment _ ih => exact ih hf fun l hm => hl l (List.mem_cons_of_mem _ hm)
  | incl hw ht _ _ ih1 ih2 =>
    intro s hs
    rcases List.mem_append.1 hs with hs | hs
    · refine ih1 (fun hm => absurd (hw.2.1 _ hm) (by decide)) (fun l hm => ?_) s hs
      unfold textFiles at ht
      rw [Option.map_eq_some_iff] at ht
      obtain ⟨t, -, rfl⟩ := ht
      exact lines_return hm
    · exact ih2 hf (fun l hm => hl l (List.mem_cons_of_mem _ hm)) s hs
  | plain _ _ _ ih =>
    intro s hs
    rcases List.mem_cons.1 hs with rfl | hs
    · exact ⟨hf, hl _ List.mem_cons_self⟩
    · exact ih hf (fun l hm => hl l (List.mem_cons_of_mem _ hm)) s hs

/-- C200: so does listing, if there are no carriage returns in the names of the files, and what is read
from the files afterwards is as if they had been stored with newlines. -/
theorem C200_listing (disk : FileSystem) (fuel : Nat) (args : List Str)
    (hargs : ∀ f ∈ args, '\r' ∉ f) :
    (listingDisk disk fuel args).2 = (listingMain (textFiles disk) fuel args).2 ∧
    textFiles (listingDisk disk fuel args).1 = (listingMain (textFiles disk) fuel args).1 := by
  unfold listingDisk listingMain
  split
  · exact ⟨rfl, rfl⟩
  · rename_i hne
    clear hne
    induction args generalizing disk with
    | nil => exact ⟨rfl, rfl⟩
    | cons f args ih =>
      rw [listingFilesDisk, listingFiles]
      cases hd : deckCards (textFiles disk) fuel f with
      | error e => exact ⟨rfl, rfl⟩
      | ok cards =>
        simp only
        have hr : '\r' ∉ cards.flatMap deckLine := by
          obtain ⟨-, out, ⟨text, ht, hx⟩, rfl⟩ := deckCards_ok hd
          have hout := expand_return hx (hargs f List.mem_cons_self) (fun l hm => by
            unfold textFiles at ht
            rw [Option.map_eq_some_iff] at ht
            obtain ⟨t, -, rfl⟩ := ht
            exact lines_return hm)
          simp only [List.mem_flatMap, List.mem_map, not_exists, not_and]
          rintro c ⟨s, hs, rfl⟩ hm
          obtain ⟨h1, h2⟩ := hout s hs
          have hpad : ∀ n (x : Str), '\r' ∉ x → '\r' ∉ padRight n x := by
            intro n x hx
            unfold padRight
            simp only [List.mem_append, not_or, List.mem_replicate]
            exact ⟨hx, fun e => absurd e.2 (by decide)⟩
          have hrem : ∀ x : Str, '\r' ∉ x → '\r' ∉ remove x '\n' := fun x hx hm =>
            hx (List.mem_filter.1 hm).1
          have : '\r' ∉ deckLine (srcCard s) := by
            unfold deckLine
            simp only [List.mem_append, List.mem_cons, not_or]
            exact ⟨⟨⟨hpad 64 s.file h1, by decide, hpad 6 _ (pyStr_return _)⟩, by decide,
              hrem _ (hrem _ h2)⟩, by decide⟩
          exact this hm
        have := ih (writeFile disk (listfileOf f) (cards.flatMap deckLine))
          fun g hg => hargs g (List.mem_cons_of_mem _ hg)
        rw [textFiles_write, universal_plain hr] at this
        exact this

/-! ### Examples -/

/-- A file with the lines of a DOS file. -/
def dosFs : FileSystem := fun f =>
  if f = py "A.arg" then some (py "L      @A\r\n# Pages: 1\r\n") else none

/-- The same file, with the lines of old Macintosh files. -/
def macFs : FileSystem := fun f =>
  if f = py "A.arg" then some (py "L      @A\r# Pages: 1\r") else none

/-- C200, an example: the files have the same lines. -/
example : SameStored dosFs macFs := by
  intro f
  by_cases hf : f = py "A.arg"
  · refine Or.inr ⟨_, _, [py "L      @A\n", py "# Pages: 1\n"], if_pos hf, if_pos hf, ?_, ?_⟩
    · exact .line (l := py "L      @A") (e := ['\r', '\n']) (by decide) (by decide)
        (Or.inr (Or.inl rfl)) (by decide) (.line (l := py "# Pages: 1") (e := ['\r', '\n']) (by decide)
        (by decide) (Or.inr (Or.inl rfl)) (by decide) .nil)
    · exact .line (l := py "L      @A") (e := ['\r']) (by decide) (by decide)
        (Or.inr (Or.inr rfl)) (by decide) (.line (l := py "# Pages: 1") (e := ['\r']) (by decide)
        (by decide) (Or.inr (Or.inr rfl)) (by decide) .nil)
  · exact Or.inl ⟨if_neg hf, if_neg hf⟩

/-- C200, an example: the line after the second one is blank in the first file after genpages, and the
log card in the other one. -/
example : (genpagesDisk dosFs 5 [py "A.arg"]).2 = .ok () ∧
    ((textFiles (genpagesDisk dosFs 5 [py "A.arg"]).1 (py "A.arg")).map fun t =>
      (readlines t).drop 2 |>.take 2) = some [py "\n", py "L      @A\n"] ∧
    ((textFiles (genpagesDisk macFs 5 [py "A.arg"]).1 (py "A.arg")).map fun t =>
      (readlines t).drop 2 |>.take 2) = some [py "L      @A\n", py "\n"] := by
  refine ⟨?_, ?_, ?_⟩ <;> decide +kernel

/-- C200, an example: the listing of the file. -/
example : (listingDisk macFs 5 [py "A.arg"]).1 (py "A.lst") =
    some (py "A.arg                                                            1      L      @A\n") :=
  by decide +kernel

end H800
