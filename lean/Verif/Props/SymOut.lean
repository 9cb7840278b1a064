import Verif.Props.SymBack

/-!
What the symbol tools write on the standard output can be read off its text (C173), and which of their
messages go there (C174).
-/

namespace H800

open Spec

/-! ### Lines of the standard output -/

/-- Is this printed on the standard output? -/
def keep : Told SymMsg → Bool
  | .inl _ => true
  | .inr m => !isError m

/-- What is printed on the standard output. -/
def kept (out : List (VMsg SymMsg)) : List (Told SymMsg) := (out.map told).filter keep

/-- What it says but for the cards. -/
def keptView : Told SymMsg → Extra ⊕ Bare := Sum.map id bare

/-- The line of a note. -/
def noteLine : Note → Str
  | .reading f => py "Reading " ++ f ++ py "..."
  | .comment f n => py "Skipping meta-comment, file " ++ f ++ py ", line " ++ pyStr n

/-- The only line of what is printed. -/
def keptLine (p : Char → Bool) (a : CodeCard → Nat) : Told SymMsg → Str
  | .inl (.note n) => noteLine n
  | .inl _ => []
  | .inr m => (m.text p a).headD []

theorem resultsOf_eq (out : List (VMsg SymMsg)) : resultsOf out = (kept out).map keptView := by
  unfold resultsOf kept
  induction out.map told with
  | nil => rfl
  | cons x l ih =>
    rw [List.filterMap_cons, ih, List.filter_cons]
    cases x with
    | inl x => rfl
    | inr m =>
      cases h : isError m with
      | true =>
        rw [if_neg (show ¬ keep (.inr m) = true by simp [keep, h])]
        simp [h]
      | false =>
        rw [if_pos (show keep (.inr m) = true by simp [keep, h])]
        simp [h, keptView]

theorem oneLine (p : Char → Bool) (a : CodeCard → Nat) {m : SymMsg} (h : isError m = false) :
    m.text p a = [keptLine p a (.inr m)] := by
  cases m with
  | listing l => rfl
  | matches_ s l => rfl
  | found f => rfl
  | _ => cases h

theorem symStdout_eq (p : Char → Bool) (a : CodeCard → Nat) {out : List (VMsg SymMsg)}
    (h : ∀ x ∈ kept out, (∃ n, x = .inl (.note n)) ∨ ∃ m, x = .inr m) :
    symStdout p a out = printed ((kept out).map (keptLine p a)) := by
  unfold symStdout
  congr 1
  induction out with
  | nil => rfl
  | cons x out ih =>
    have hk : kept (x :: out) = if keep (told x) = true then told x :: kept out else kept out := by
      unfold kept
      rw [List.map_cons, List.filter_cons]
    rw [List.flatMap_cons, ih, hk]
    · cases x with
      | reading f => rfl
      | meta_ f n => rfl
      | starred c =>
        rcases h (told (.starred c)) (by rw [hk]; exact List.mem_cons_self) with ⟨n, e⟩ | ⟨m, e⟩ <;> cases e
      | wrote f =>
        rcases h (told (.wrote f)) (by rw [hk]; exact List.mem_cons_self) with ⟨n, e⟩ | ⟨m, e⟩ <;> cases e
      | msg m =>
        show (if m.onStdout = true then m.text p a else []) ++ _ =
          List.map _ (if (!isError m) = true then Sum.inr m :: kept out else kept out)
        cases he : isError m with
        | true =>
          rw [isError_eq] at he
          rw [if_neg (by simpa using he), if_neg (by simp)]
          rfl
        | false =>
          rw [oneLine p a he]
          rw [isError_eq] at he
          rw [if_pos (by simpa using he), if_pos (by simp)]
          rfl
    · intro y hy
      refine h y ?_
      rw [hk]
      split
      · exact List.mem_cons_of_mem _ hy
      · exact hy

theorem map_view {α β γ : Type} {g g' : α → β} {v : α → γ} {T : α → Prop}
    (hT : ∀ a b, T a → T b → g a = g' b → v a = v b) {l l' : List α} (hl : ∀ x ∈ l, T x)
    (hl' : ∀ x ∈ l', T x) (e : l.map g = l'.map g') : l.map v = l'.map v := by
  induction l generalizing l' with
  | nil => cases l' with
    | nil => rfl
    | cons a l' => cases e
  | cons a l ih =>
    cases l' with
    | nil => cases e
    | cons b l' =>
      rw [List.map_cons, List.map_cons] at e
      obtain ⟨e1, e2⟩ := List.cons.inj e
      rw [List.map_cons, List.map_cons, hT a b (hl a (by simp)) (hl' b (by simp)) e1,
        ih (fun x hx => hl x (by simp [hx])) (fun x hx => hl' x (by simp [hx])) e2]

/-- A note whose file can be told from its line. -/
def TellNote (n : Note) : Prop := ' ' ∉ noteFile n ∧ '\n' ∉ noteFile n

theorem noteLine_newline {n : Note} (h : TellNote n) : '\n' ∉ noteLine n := by
  have app : ∀ {a b : Str}, '\n' ∉ a → '\n' ∉ b → '\n' ∉ a ++ b :=
    fun ha hb hc => (List.mem_append.1 hc).elim ha hb
  cases n with
  | reading f => exact app (app (by decide) h.2) (by decide)
  | comment f n => exact app (app (app (by decide) h.2) (by decide)) (pyStr_no_newline _)

theorem noteLine_inj {n n' : Note} (h : TellNote n) (h' : TellNote n')
    (e : noteLine n = noteLine n') : n = n' := by
  cases n with
  | reading f =>
    cases n' with
    | reading f' => exact congrArg _ (cancel_ends e)
    | comment f' k' => exact absurd (congrArg List.head? e) (by simp [noteLine])
  | comment f k =>
    cases n' with
    | reading f' => exact absurd (congrArg List.head? e) (by simp [noteLine])
    | comment f' k' =>
      have comma : ∀ {f : Str}, ' ' ∉ f → ' ' ∉ f ++ [','] := by
        intro f hf hc
        rcases List.mem_append.1 hc with hc | hc
        · exact hf hc
        · revert hc; decide
      have e2 : (f ++ [',']) ++ ' ' :: (py "line " ++ pyStr k) =
          (f' ++ [',']) ++ ' ' :: (py "line " ++ pyStr k') := by
        have e0 : py "Skipping meta-comment, file " ++ f ++ py ", line " ++ pyStr k =
            py "Skipping meta-comment, file " ++ f' ++ py ", line " ++ pyStr k' := e
        rw [List.append_assoc, List.append_assoc, List.append_assoc, List.append_assoc] at e0
        have e3 := List.append_cancel_left e0
        rw [List.append_assoc, List.append_assoc]
        exact e3
      obtain ⟨e4, e5⟩ := until_char (m := f ++ [',']) (m' := f' ++ [',']) (comma h.1) (comma h'.1) e2
      rw [List.append_cancel_right e4, natStr_inj (List.append_cancel_left e5)]

theorem noteLine_first (n : Note) : ∃ c r, noteLine n = c :: r ∧ (c = 'R' ∨ c = 'S') ∧ ' ' ∈ r := by
  cases n with
  | reading f => exact ⟨'R', _, rfl, .inl rfl, by simp⟩
  | comment f k => exact ⟨'S', _, rfl, .inr rfl, by simp⟩

theorem noteLine_head {n : Note} {c : Char} (h : (noteLine n).head? = some c) : c = 'R' ∨ c = 'S' := by
  obtain ⟨d, r, e, hd, -⟩ := noteLine_first n
  rw [e] at h
  obtain rfl := Option.some.inj h
  exact hd

/-- If the messages on the standard output can be told from their lines, then they can be told from the
whole text. `M` is the messages that the tool can print there. -/
theorem stdout_inj {p p' : Char → Bool} {a a' : CodeCard → Nat} {out out' : List (VMsg SymMsg)}
    {M : SymMsg → Prop}
    (hnl : ∀ (p : Char → Bool) (a : CodeCard → Nat) (m : SymMsg), M m → '\n' ∉ keptLine p a (.inr m))
    (hinj : ∀ m m', M m → M m' → keptLine p a (.inr m) = keptLine p' a' (.inr m') → bare m = bare m')
    (hnote : ∀ (p : Char → Bool) (a : CodeCard → Nat) (m : SymMsg) (n : Note), M m →
      keptLine p a (.inr m) ≠ noteLine n)
    (hx : ∀ x ∈ out.filterMap extra, ∃ n, x = .note n ∧ TellNote n)
    (hx' : ∀ x ∈ out'.filterMap extra, ∃ n, x = .note n ∧ TellNote n)
    (hm : ∀ m ∈ out.filterMap usual, isError m = false → M m)
    (hm' : ∀ m ∈ out'.filterMap usual, isError m = false → M m)
    (e : symStdout p a out = symStdout p' a' out') : resultsOf out = resultsOf out' := by
  have tell : ∀ {out : List (VMsg SymMsg)},
      (∀ x ∈ out.filterMap extra, ∃ n, x = Extra.note n ∧ TellNote n) →
      (∀ m ∈ out.filterMap usual, isError m = false → M m) →
      ∀ x ∈ kept out, (∃ n, x = .inl (.note n) ∧ TellNote n) ∨ ∃ m, x = .inr m ∧ M m := by
    intro out hx hm x hk
    unfold kept at hk
    obtain ⟨hk, hb⟩ := List.mem_filter.1 hk
    obtain ⟨v, hv, rfl⟩ := List.mem_map.1 hk
    cases v with
    | msg m =>
      exact .inr ⟨m, rfl, hm m (List.mem_filterMap.2 ⟨_, hv, rfl⟩) (by simpa [told, keep] using hb)⟩
    | reading f =>
      obtain ⟨n, e, hn⟩ := hx _ (List.mem_filterMap.2 ⟨_, hv, rfl⟩)
      exact .inl ⟨n, congrArg _ e, hn⟩
    | meta_ f k =>
      obtain ⟨n, e, hn⟩ := hx _ (List.mem_filterMap.2 ⟨_, hv, rfl⟩)
      exact .inl ⟨n, congrArg _ e, hn⟩
    | starred c =>
      obtain ⟨n, e, hn⟩ := hx _ (List.mem_filterMap.2 ⟨_, hv, rfl⟩)
      exact .inl ⟨n, congrArg _ e, hn⟩
    | wrote f =>
      obtain ⟨n, e, hn⟩ := hx _ (List.mem_filterMap.2 ⟨_, hv, rfl⟩)
      exact .inl ⟨n, congrArg _ e, hn⟩
  have t := tell hx hm
  have t' := tell hx' hm'
  have weak : ∀ {out : List (VMsg SymMsg)},
      (∀ x ∈ kept out, (∃ n, x = .inl (.note n) ∧ TellNote n) ∨ ∃ m, x = .inr m ∧ M m) →
      ∀ x ∈ kept out, (∃ n, x = .inl (.note n)) ∨ ∃ m, x = .inr m := by
    intro out t x hx
    rcases t x hx with ⟨n, e, -⟩ | ⟨m, e, -⟩
    · exact .inl ⟨n, e⟩
    · exact .inr ⟨m, e⟩
  have nl : ∀ (p : Char → Bool) (a : CodeCard → Nat) {out : List (VMsg SymMsg)},
      (∀ x ∈ kept out, (∃ n, x = .inl (.note n) ∧ TellNote n) ∨ ∃ m, x = .inr m ∧ M m) →
      ∀ l ∈ (kept out).map (keptLine p a), '\n' ∉ l := by
    intro p a out t l hl
    obtain ⟨x, hx, rfl⟩ := List.mem_map.1 hl
    rcases t x hx with ⟨n, rfl, hn⟩ | ⟨m, rfl, hm⟩
    · exact noteLine_newline hn
    · exact hnl p a m hm
  rw [symStdout_eq p a (weak t), symStdout_eq p' a' (weak t')] at e
  rw [resultsOf_eq, resultsOf_eq]
  refine map_view (g := keptLine p a) (g' := keptLine p' a')
    (T := fun x => (∃ n, x = .inl (.note n) ∧ TellNote n) ∨ ∃ m, x = .inr m ∧ M m) ?_ t t'
    (text_lines_inj (nl p a t) (nl p' a' t') e)
  rintro x y (⟨n, rfl, hn⟩ | ⟨m, rfl, hm⟩) (⟨n', rfl, hn'⟩ | ⟨m', rfl, hm'⟩) e
  · rw [noteLine_inj hn hn' e]
  · exact absurd e.symm (hnote p' a' m' n hm')
  · exact absurd e (hnote p a m n' hm)
  · exact congrArg Sum.inr (hinj m m' hm hm' e)

theorem notes_or_none {fs : FileSystem} {files : List Str} {l : List Extra}
    (hn : ∀ f ∈ files, ' ' ∉ f ∧ '\n' ∉ f) (h : NotesAre fs files l ∨ l = []) :
    ∀ x ∈ l, ∃ n, x = .note n ∧ TellNote n := by
  rcases h with h | rfl
  · exact notesAre_tell hn h
  · nofun

theorem tellErr_isError {m : SymMsg} (h : TellErr m) : isError m = true := by
  cases m with
  | found f => exact absurd h id
  | matches_ s l => exact absurd h id
  | listing l => cases l <;> first | rfl | exact absurd h id
  | _ => rfl

theorem reports_isError {upper : Str → Str} {announce : Bool} {srcs : List (Str × List Src)}
    {rs : List (List SymMsg)} (h : List.Forall₂ (FileReport upper announce) srcs rs) :
    ∀ m ∈ rs.flatten, isError m = true := by
  induction h with
  | nil =>
    intro m hm
    cases hm
  | cons hr _ ih =>
    intro m hm
    rw [List.flatten_cons] at hm
    rcases List.mem_append.1 hm with hm | hm
    · obtain ⟨ds, -, rfl⟩ := hr
      rcases List.mem_append.1 hm with hm | hm
      · obtain ⟨d, -, rfl⟩ := List.mem_map.1 hm
        rfl
      · split at hm
        · rw [List.mem_singleton.1 hm]
          rfl
        · cases hm
    · exact ih m hm

/-! ### find-symbols -/

theorem found_inj {p p' : Char → Bool} {a a' : CodeCard → Nat} {f f' : Found}
    (e : f.text p a = f'.text p' a') : bare (.found f) = bare (.found f') := by
  have nil : ∀ {s t : Str}, s = t → s ++ [] = t ++ [] := fun h => by rw [h]
  cases f with
  | nothing =>
    cases f' with
    | nothing => rfl
    | names l => exact absurd (congrArg List.head? e) (by simp [Found.text, reprList])
    | defs d => exact absurd (congrArg List.head? e) (by simp [Found.text, reprDict])
  | names l =>
    cases f' with
    | nothing => exact absurd (congrArg List.head? e) (by simp [Found.text, reprList])
    | names l' =>
      have e1 : l = l' := (readable_list p p' l l' [] [] (nil e)).1
      rw [e1]
    | defs d => exact absurd (congrArg List.head? e) (by simp [Found.text, reprList, reprDict])
  | defs d =>
    cases f' with
    | nothing => exact absurd (congrArg List.head? e) (by simp [Found.text, reprDict])
    | names l => exact absurd (congrArg List.head? e) (by simp [Found.text, reprList, reprDict])
    | defs d' => exact congrArg Bare.defs (readable_defs p p' a a' d d' [] [] (nil e)).1

theorem found_first (p : Char → Bool) (a : CodeCard → Nat) (f : Found) (n : Note) :
    f.text p a ≠ noteLine n := by
  intro e
  have h : ∀ c, (f.text p a).head? = some c → c = 'R' ∨ c = 'S' := by
    intro c hc
    rw [e] at hc
    exact noteLine_head hc
  cases f with
  | nothing => exact absurd (h 'N' rfl) (by decide)
  | names l => exact absurd (h '[' rfl) (by decide)
  | defs d => exact absurd (h '{' rfl) (by decide)

/-- C173: if two runs of find-symbols write the same text on the standard output, then they say the
same there: with `--verbose` the same is told while the files are read, and the same names or the same
definitions have been found, with their segments, subsegments, kinds, files, line numbers, log numbers
and tag types. -/
theorem C173_find (printable printable' : Char → Bool) (addr addr' : CodeCard → Nat)
    (upper upper' : Str → Str) (extract extract' : Str → List Str → Nat → List Str)
    (fs fs' : FileSystem) (fuel fuel' : Nat) (argv argv' files files' : List Str)
    (symbol symbol' : Str) (os os' : List Opt) (out out' : List (VMsg SymMsg))
    (hm : Means FIND_SYMBOLS_OPTS argv os (symbol :: files))
    (hm' : Means FIND_SYMBOLS_OPTS argv' os' (symbol' :: files'))
    (hp : PlainFiles files) (hp' : PlainFiles files')
    (hn : ∀ f ∈ files, ' ' ∉ f ∧ '\n' ∉ f) (hn' : ∀ f ∈ files', ' ' ∉ f ∧ '\n' ∉ f)
    (h : findSymbolsCmd upper extract fs fuel argv = (out, .ok ()))
    (h' : findSymbolsCmd upper' extract' fs' fuel' argv' = (out', .ok ()))
    (e : symStdout printable addr out = symStdout printable' addr' out') :
    resultsOf out = resultsOf out' := by
  have key : ∀ {upper : Str → Str} {extract : Str → List Str → Nat → List Str} {fs : FileSystem}
      {fuel : Nat} {argv files : List Str} {symbol : Str} {os : List Opt} {out : List (VMsg SymMsg)},
      Means FIND_SYMBOLS_OPTS argv os (symbol :: files) → PlainFiles files →
      (∀ f ∈ files, ' ' ∉ f ∧ '\n' ∉ f) →
      findSymbolsCmd upper extract fs fuel argv = (out, .ok ()) →
      (∀ x ∈ out.filterMap extra, ∃ n, x = Extra.note n ∧ TellNote n) ∧
      ∀ m ∈ out.filterMap usual, isError m = false → ∃ f, m = .found f := by
    intro upper extract fs fuel argv files symbol os out hm hp hn h
    obtain ⟨srcs, rs, tail, hr, h1, h3, h4, h5⟩ := findSymbolsCmd_shape hm hp h
    refine ⟨notes_or_none hn h5, ?_⟩
    intro m hm' he
    rw [h4] at hm'
    rcases List.mem_append.1 hm' with hm' | hm'
    · rw [tellErr_isError (reports_tell hr hn h1 m hm')] at he
      cases he
    · rcases h3 with rfl | rfl | ⟨f, rfl⟩
      · cases hm'
      · rw [List.mem_singleton.1 hm'] at he; cases he
      · exact ⟨f, List.mem_singleton.1 hm'⟩
  obtain ⟨k1, k2⟩ := key hm hp hn h
  obtain ⟨k1', k2'⟩ := key hm' hp' hn' h'
  refine stdout_inj (M := fun m => ∃ f, m = .found f) ?_ ?_ ?_ k1 k1' k2 k2' e
  · rintro p a m ⟨f, rfl⟩
    exact found_newline p a f
  · rintro m m' ⟨f, rfl⟩ ⟨f', rfl⟩ e
    exact found_inj e
  · rintro p a m n ⟨f, rfl⟩
    exact found_first p a f n

/-! ### check-symbols -/

theorem joinText_inj {l l' : List Str} (h : ∀ x ∈ l, ' ' ∉ x) (h' : ∀ x ∈ l', ' ' ∉ x) (hl : l ≠ [])
    (hl' : l' ≠ []) (e : joinText (py " ") l = joinText (py " ") l') : l = l' := by
  induction l generalizing l' with
  | nil => exact absurd rfl hl
  | cons x l ih =>
    cases l' with
    | nil => exact absurd rfl hl'
    | cons x' l' =>
      cases l with
      | nil =>
        cases l' with
        | nil => exact congrArg (fun z => [z]) e
        | cons y' l' =>
          refine absurd (?_ : ' ' ∈ x) (h x (by simp))
          have e' : x = x' ++ py " " ++ joinText (py " ") (y' :: l') := e
          rw [e']
          simp
      | cons y l =>
        cases l' with
        | nil =>
          refine absurd (?_ : ' ' ∈ x') (h' x' (by simp))
          have e' : x ++ py " " ++ joinText (py " ") (y :: l) = x' := e
          rw [← e']
          simp
        | cons y' l' =>
          have e' : x ++ py " " ++ joinText (py " ") (y :: l) =
            x' ++ py " " ++ joinText (py " ") (y' :: l') := e
          rw [List.append_assoc, List.append_assoc] at e'
          obtain ⟨e1, e2⟩ := until_char (h x (by simp)) (h' x' (by simp)) e'
          rw [e1, ih (fun z hz => h z (by simp [hz])) (fun z hz => h' z (by simp [hz])) (by simp)
            (by simp) e2]

/-- Suggestions that can be told from their line. -/
def TellMatches (m : SymMsg) : Prop :=
  ∃ s l, m = .matches_ s l ∧ (' ' ∉ s ∧ '\n' ∉ s) ∧ (∀ x ∈ l, ' ' ∉ x ∧ '\n' ∉ x) ∧ l ≠ []

/-- C173: the same for check-symbols, where it is the symbols suggested for an undefined one that are
written on the standard output. -/
theorem C173_check (printable printable' : Char → Bool) (addr addr' : CodeCard → Nat)
    (upper upper' : Str → Str) (extract extract' : Str → List Str → Nat → List Str)
    (hx : Chooses extract) (hx' : Chooses extract')
    (fs fs' : FileSystem) (fuel fuel' : Nat) (argv argv' files files' : List Str) (os os' : List Opt)
    (out out' : List (VMsg SymMsg))
    (hm : Means CHECK_SYMBOLS_OPTS argv os files) (hm' : Means CHECK_SYMBOLS_OPTS argv' os' files')
    (hp : PlainFiles files) (hp' : PlainFiles files')
    (hn : ∀ f ∈ files, ' ' ∉ f ∧ '\n' ∉ f) (hn' : ∀ f ∈ files', ' ' ∉ f ∧ '\n' ∉ f)
    (h : checkSymbolsCmd upper extract fs fuel argv = (out, .ok ()))
    (h' : checkSymbolsCmd upper' extract' fs' fuel' argv' = (out', .ok ()))
    (e : symStdout printable addr out = symStdout printable' addr' out') :
    resultsOf out = resultsOf out' := by
  have key : ∀ {upper : Str → Str} {extract : Str → List Str → Nat → List Str} {fs : FileSystem}
      {fuel : Nat} {argv files : List Str} {os : List Opt} {out : List (VMsg SymMsg)},
      Chooses extract → Means CHECK_SYMBOLS_OPTS argv os files → PlainFiles files →
      (∀ f ∈ files, ' ' ∉ f ∧ '\n' ∉ f) →
      checkSymbolsCmd upper extract fs fuel argv = (out, .ok ()) →
      (∀ x ∈ out.filterMap extra, ∃ n, x = Extra.note n ∧ TellNote n) ∧
      ∀ m ∈ out.filterMap usual, isError m = false → TellMatches m := by
    intro upper extract fs fuel argv files os out hx hm hp hn h
    obtain ⟨srcs, rs, und, tot, hr, h1, h2, hs, h3, h4, h5⟩ := checkSymbolsCmd_shape hm hp h
    refine ⟨notes_or_none hn h5, ?_⟩
    intro m hm' he
    rw [h4] at hm'
    rcases List.mem_append.1 hm' with hm' | hm'
    · rcases List.mem_append.1 hm' with hm' | hm'
      · rcases List.mem_append.1 hm' with hm' | hm'
        · rw [tellErr_isError (reports_tell hr hn h1 m hm')] at he
          cases he
        · obtain ⟨q, hq, rfl⟩ := List.mem_map.1 hm'
          cases he
      · split at hm'
        · cases hm'
        · rcases List.mem_cons.1 hm' with rfl | hm'
          · cases he
          · rcases List.mem_append.1 hm' with hm' | hm'
            · obtain ⟨q, hq, rfl⟩ := List.mem_map.1 hm'
              split at he
              · cases he
              · rename_i hne
                rw [if_neg hne]
                exact ⟨q.1, q.2, rfl, tag_tell hr hn (h2 q hq),
                  fun x hx' => tag_tell hr hn ((hs hx q hq).2 x hx'), hne⟩
            · rw [List.mem_singleton.1 hm'] at he
              cases he
    · rcases h3 with rfl | ⟨n, rfl⟩
      · cases hm'
      · rw [List.mem_singleton.1 hm'] at he
        cases he
  obtain ⟨k1, k2⟩ := key hx hm hp hn h
  obtain ⟨k1', k2'⟩ := key hx' hm' hp' hn' h'
  have app : ∀ {a b : Str}, '\n' ∉ a → '\n' ∉ b → '\n' ∉ a ++ b :=
    fun ha hb hc => (List.mem_append.1 hc).elim ha hb
  refine stdout_inj (M := TellMatches) ?_ ?_ ?_ k1 k1' k2 k2' e
  · rintro p a m ⟨s, l, rfl, h1, h2, h3⟩
    exact app (app (app (by decide) h1.2) (by decide))
      (joinText_newline (fun x hx => (h2 x hx).2) (by decide))
  · rintro m m' ⟨s, l, rfl, h1, h2, h3⟩ ⟨s', l', rfl, h1', h2', h3'⟩ e
    have e0 : py "  " ++ s ++ py " - Possible matches: " ++ joinText (py " ") l =
      py "  " ++ s' ++ py " - Possible matches: " ++ joinText (py " ") l' := e
    rw [List.append_assoc, List.append_assoc, List.append_assoc, List.append_assoc] at e0
    obtain ⟨e1, e2⟩ := until_char h1.1 h1'.1 (List.append_cancel_left e0)
    have e3 := joinText_inj (fun x hx => (h2 x hx).1) (fun x hx => (h2' x hx).1) h3 h3'
      (List.append_cancel_left (as := py "- Possible matches: ") e2)
    rw [e1, e3]
  · rintro p a m n ⟨s, l, rfl, -, -, -⟩ e
    exact absurd (noteLine_head (n := n) (c := ' ') (by rw [← e]; rfl)) (by decide)

/-! ### list-symbols -/

theorem plainly_note {x : ListLine} (h : Plainly x) (n : Note) : x.text ≠ noteLine n := by
  intro e
  cases x with
  | errors n => exact h
  | sym s =>
    obtain ⟨c, r, e', -, hb⟩ := noteLine_first n
    refine h.1 ?_
    have e2 : s = noteLine n := e
    rw [e2, e']
    exact List.mem_cons_of_mem _ hb
  | seg s => exact absurd (noteLine_head (n := n) (c := ' ') (by rw [← e]; rfl)) (by decide)
  | sub s => exact absurd (noteLine_head (n := n) (c := ' ') (by rw [← e]; rfl)) (by decide)
  | entry k tt f l c => exact absurd (noteLine_head (n := n) (c := ' ') (by rw [← e]; rfl)) (by decide)

/-- The line of the listing in a result. -/
def listedLine : Extra ⊕ Bare → Option ListLine
  | .inr (.plain (.listing x)) => some x
  | _ => none

/-- The line of the listing in a message. -/
def listedMsg : SymMsg → Option ListLine
  | .listing x => some x
  | _ => none

theorem results_listed (out : List (VMsg SymMsg)) : (resultsOf out).filterMap listedLine =
    ((out.filterMap usual).filter fun m => !isError m).filterMap listedMsg := by
  induction out with
  | nil => rfl
  | cons x out ih =>
    cases x with
    | msg m =>
      cases h : isError m with
      | true => simpa [resultsOf, told, usual, h] using ih
      | false =>
        have hb : listedLine (.inr (bare m)) = listedMsg m := by
          cases m with
          | found f => cases f <;> rfl
          | _ => rfl
        have e1 : resultsOf (.msg m :: out) = .inr (bare m) :: resultsOf out := by
          simp [resultsOf, told, h]
        have e2 : ((VMsg.msg m :: out).filterMap usual).filter (fun m => !isError m) =
            m :: (out.filterMap usual).filter fun m => !isError m := by
          simp [usual, h]
        rw [e1, e2, List.filterMap_cons, List.filterMap_cons, hb, ih]
    | _ => exact ih

theorem listed_filter (l : List ListLine) :
    ((l.map SymMsg.listing).filter fun m => !isError m).filterMap listedMsg =
      l.filter ListLine.onStdout := by
  induction l with
  | nil => rfl
  | cons x l ih =>
    cases x with
    | errors n => exact ih
    | _ => exact congrArg (List.cons _) ih

/-- C173: the same for list-symbols, where it is the listing that is written on the standard output;
the definitions listed are the same. -/
theorem C173_list (printable printable' : Char → Bool) (addr addr' : CodeCard → Nat)
    (upper upper' : Str → Str)
    (fs fs' : FileSystem) (fuel fuel' : Nat) (argv argv' files files' : List Str) (os os' : List Opt)
    (out out' : List (VMsg SymMsg))
    (hm : Means VERBOSE_OPTS argv os files) (hm' : Means VERBOSE_OPTS argv' os' files')
    (hp : PlainFiles files) (hp' : PlainFiles files')
    (hn : ∀ f ∈ files, ' ' ∉ f ∧ '\n' ∉ f) (hn' : ∀ f ∈ files', ' ' ∉ f ∧ '\n' ∉ f)
    (h : listSymbolsCmd upper fs fuel argv = (out, .ok ()))
    (h' : listSymbolsCmd upper' fs' fuel' argv' = (out', .ok ()))
    (e : symStdout printable addr out = symStdout printable' addr' out') :
    resultsOf out = resultsOf out' ∧
    ∃ l l', listSymbols upper fs fuel files = .ok l ∧ listSymbols upper' fs' fuel' files' = .ok l' ∧
      rows [] [] [] l = rows [] [] [] l' := by
  have key : ∀ {upper : Str → Str} {fs : FileSystem}
      {fuel : Nat} {argv files : List Str} {os : List Opt} {out : List (VMsg SymMsg)},
      Means VERBOSE_OPTS argv os files → PlainFiles files →
      (∀ f ∈ files, ' ' ∉ f ∧ '\n' ∉ f) →
      listSymbolsCmd upper fs fuel argv = (out, .ok ()) →
      (∀ x ∈ out.filterMap extra, ∃ n, x = Extra.note n ∧ TellNote n) ∧
      (∀ m ∈ out.filterMap usual, isError m = false → ∃ x, m = .listing x ∧ Plainly x) ∧
      ∃ l, listSymbols upper fs fuel files = .ok l ∧
        (resultsOf out).filterMap listedLine = layout none (rows [] [] [] l) := by
    intro upper fs fuel argv files os out hm hp hn h
    obtain ⟨srcs, rs, l, hr, h1, h3, h4, h5⟩ := listSymbolsCmd_shape hm hp h
    refine ⟨notes_or_none hn h5, ?_, l, h3, ?_⟩
    · intro m hm' he
      rw [h4] at hm'
      rcases List.mem_append.1 hm' with hm' | hm'
      · rw [tellErr_isError (reports_tell hr hn h1 m hm')] at he
        cases he
      · obtain ⟨x, hx, rfl⟩ := List.mem_map.1 hm'
        obtain ⟨g1, g2⟩ := listing_layout hp hn h3
        refine ⟨x, rfl, g1 x ?_⟩
        rw [← g2]
        refine List.mem_filter.2 ⟨hx, ?_⟩
        cases x with
        | errors n => cases he
        | _ => rfl
    · rw [← (listing_layout hp hn h3).2, results_listed, h4, List.filter_append]
      rw [List.filter_eq_nil_iff.2 fun m hm' => by
        rw [tellErr_isError (reports_tell hr hn h1 m hm')]; decide, List.nil_append]
      exact listed_filter l
  obtain ⟨k1, k2, l, k3, k4⟩ := key hm hp hn h
  obtain ⟨k1', k2', l', k3', k4'⟩ := key hm' hp' hn' h'
  have res : resultsOf out = resultsOf out' := by
    refine stdout_inj (M := fun m => ∃ x, m = .listing x ∧ Plainly x) ?_ ?_ ?_ k1 k1' k2 k2' e
    · rintro p a m ⟨x, rfl, hx⟩
      exact plainly_newline hx
    · rintro m m' ⟨x, rfl, hx⟩ ⟨x', rfl, hx'⟩ e
      rw [plainly_text_inj hx hx' e]
    · rintro p a m n ⟨x, rfl, hx⟩
      exact plainly_note hx n
  refine ⟨res, l, l', k3, k3', ?_⟩
  rw [← C104_rows (rows [] [] [] l), ← k4, res, k4', C104_rows]

/-! ### Which messages go to the standard output -/

/-- C174, as it ought to be: check-symbols reports what is wrong on the standard error stream, so that
without `--verbose` nothing is written on the standard output. -/
def C174_statement : Prop :=
  ∀ (printable : Char → Bool) (addr : CodeCard → Nat) (upper : Str → Str)
    (extract : Str → List Str → Nat → List Str) (fs : FileSystem) (fuel : Nat)
    (argv files : List Str) (os : List Opt) (out : List (VMsg SymMsg)),
    Means CHECK_SYMBOLS_OPTS argv os files → ¬ Given os (py "verbose") → PlainFiles files →
    checkSymbolsCmd upper extract fs fuel argv = (out, .ok ()) → symStdout printable addr out = []

theorem twoFs_means : Means CHECK_SYMBOLS_OPTS [py "-c", py "A.arg", py "B.arg"]
    [⟨py "-c", py "--complex", some (py "complex")⟩] [py "A.arg", py "B.arg"] :=
  Means.letters (cs := py "c") (os := [_]) (by decide)
    (List.Forall₂.cons (by decide) List.Forall₂.nil)
    (.plain (Or.inr (by decide)) (.plain (Or.inr (by decide)) .done))

/-- C174 fails: the symbols suggested for an undefined one are written on the standard output
(check-symbols.py 56 has no `file=sys.stderr`). -/
theorem C174_refuted : ¬ C174_statement := by
  intro h
  have := h (fun _ => true) (fun _ => 0) asciiUpper (fun _ cs n => cs.take n) twoFs 10
    [py "-c", py "A.arg", py "B.arg"] [py "A.arg", py "B.arg"]
    [⟨py "-c", py "--complex", some (py "complex")⟩] _ twoFs_means (by
      rintro ⟨o, ho, e⟩
      rw [List.mem_singleton.1 ho] at e
      revert e
      decide) twoFs_plain rfl
  revert this
  decide +kernel

theorem joinText_intercalate (sep : Str) : ∀ l : List Str, joinText sep l = sep.intercalate l
  | [] => rfl
  | [x] => by simp [joinText, List.intercalate]
  | x :: y :: l => by
    show x ++ sep ++ joinText sep (y :: l) = _
    rw [joinText_intercalate sep (y :: l)]
    simp [List.intercalate, List.intersperse]

/-- C174, all that does hold: check-symbols without `--verbose` writes on the standard output the
symbols suggested for those that have no simple definition, and nothing else. What is missing is that
these also are on the standard error stream. -/
theorem C174_check_partial (printable : Char → Bool) (addr : CodeCard → Nat) (upper : Str → Str)
    (extract : Str → List Str → Nat → List Str) (fs : FileSystem)
    (argv files : List Str) (os : List Opt) (srcs : List (Str × List Src))
    (hm : Means CHECK_SYMBOLS_OPTS argv os files) (hh : ¬ ∃ o ∈ os, o.dest = none)
    (hv : ¬ Given os (py "verbose"))
    (hf : files ≠ []) (hne : ∀ f ∈ files, f ≠ []) (hp : PlainFiles files)
    (hr : Read fs files srcs) :
    ∃ n, ∀ m, n ≤ m → ∃ (out : List (VMsg SymMsg)) (und : List (Str × List Str)),
      checkSymbolsCmd upper extract fs m argv = (out, .ok ()) ∧
      (∀ x, x ∈ und.map (·.1) ↔ Given os (py "complex") ∧ HasDef upper srcs x (py "complex") ∧
        ¬ HasDef upper srcs x (py "simple")) ∧
      symStdout printable addr out = (und.filter fun q => q.2 ≠ []).flatMap fun q =>
        py "  " ++ q.1 ++ py " - Possible matches: " ++ (py " ").intercalate q.2 ++ ['\n'] := by
  obtain ⟨n, hn⟩ := C164_check upper extract fs argv files os srcs hm hh hf hne hp hr
  refine ⟨n, fun m hnm => ?_⟩
  obtain ⟨out, rs, und, h1, h2, -, h3, -, h4, -, h5⟩ := hn m hnm
  refine ⟨out, und, h1, h3, ?_⟩
  have hk : ∀ x ∈ kept out, (∃ n, x = .inl (.note n)) ∨ ∃ m, x = .inr m := by
    intro x hx
    unfold kept at hx
    obtain ⟨v, hv', rfl⟩ := List.mem_map.1 (List.mem_filter.1 hx).1
    cases v with
    | msg m => exact .inr ⟨m, rfl⟩
    | _ => exact absurd (h5 hv) (List.ne_nil_of_mem (List.mem_filterMap.2 ⟨_, hv', rfl⟩))
  have hkept : kept out = ((out.filterMap usual).filter fun m => !isError m).map .inr := by
    have hx := h5 hv
    clear h1 h4 h5 hk
    unfold kept
    induction out with
    | nil => rfl
    | cons x out ih =>
      cases x with
      | msg m =>
        have hx' : out.filterMap extra = [] := hx
        have e2 : (VMsg.msg m :: out).filterMap usual = m :: out.filterMap usual := rfl
        rw [List.map_cons, List.filter_cons, ih hx', e2, List.filter_cons]
        cases h : isError m with
        | true => simp [told, keep, h]
        | false => simp [told, keep, h]
      | _ => cases hx
  rw [symStdout_eq printable addr hk, hkept, h4, List.filter_append, List.filter_append,
    List.filter_append]
  have t1 : rs.flatten.filter (fun m => !isError m) = [] :=
    List.filter_eq_nil_iff.2 fun m hm' => by rw [reports_isError h2 m hm']; decide
  have t2 : (und.map fun p => SymMsg.complexOnly p.1).filter (fun m => !isError m) = [] :=
    List.filter_eq_nil_iff.2 fun m hm' => by
      obtain ⟨q, -, rfl⟩ := List.mem_map.1 hm'
      simp [isError]
  have t3 : (if 1 < files.length then
      [SymMsg.total (number (srcs.flatMap (·.2)) (InError upper) + und.length)] else []).filter
        (fun m => !isError m) = [] := by
    split <;> rfl
  rw [t1, t2, t3, List.append_nil, List.nil_append, List.nil_append]
  have t4 : ∀ und : List (Str × List Str), printed ((((und.map fun p => if p.2 = [] then
      SymMsg.noMatches p.1 else .matches_ p.1 p.2).filter fun m => !isError m).map
        Sum.inr).map (keptLine printable addr)) =
      (und.filter fun q => q.2 ≠ []).flatMap fun q =>
        py "  " ++ q.1 ++ py " - Possible matches: " ++ (py " ").intercalate q.2 ++ ['\n'] := by
    intro und
    unfold printed
    induction und with
    | nil => rfl
    | cons q und ih =>
      rw [List.map_cons, List.filter_cons, List.filter_cons]
      by_cases hq : q.2 = []
      · rw [if_pos hq, if_neg (by simp [isError]), if_neg (by simpa using hq), ih]
      · rw [if_neg hq, if_pos (by simp [isError]), if_pos (by simpa using hq), List.map_cons,
          List.map_cons, List.flatMap_cons, List.flatMap_cons, ih, ← joinText_intercalate]
        rfl
  split
  · rename_i hu
    rw [hu]
    rfl
  · rw [← t4, List.filter_append, List.filter_cons]
    rw [if_neg (by simp [isError])]
    simp [isError]

/-- C174: the hypotheses for two files, the first of which has a symbol with a complex definition only,
and what is printed on the two streams. -/
example : Means CHECK_SYMBOLS_OPTS [py "-c", py "A.arg", py "B.arg"]
      [⟨py "-c", py "--complex", some (py "complex")⟩] [py "A.arg", py "B.arg"] ∧
    PlainFiles [py "A.arg", py "B.arg"] ∧
    Read twoFs [py "A.arg", py "B.arg"] [(py "A.arg", twoA), (py "B.arg", twoB)] ∧
    symStdout (fun _ => true) (fun _ => 4096) (checkSymbolsCmd asciiUpper (fun _ cs n => cs.take n)
      twoFs 10 [py "-c", py "A.arg", py "B.arg"]).1 = py "  C - Possible matches: D\n" ∧
    symStderr (fun _ => true) (fun _ => 4096) (checkSymbolsCmd asciiUpper (fun _ cs n => cs.take n)
      twoFs 10 [py "-c", py "A.arg", py "B.arg"]).1 =
      py "*** ERROR: Symbol b is ill-formed (case)!\nCurrent definition: {'file': 'A.arg', 'line': 1, 'lognum': None, 'tagtype': None, 'card': <h800.arguscard.Card object at 0x1000>}\nA.arg: 1 errors encountered building symbol table.\nB.arg: 0 errors encountered building symbol table.\nERROR: symbol \"C\" has a complex assignment, but no simple assignment!\n\nUndefined symbols:\n1 errors checking symbol table.\nTotal: 2 errors encountered.\n" := by
  refine ⟨twoFs_means, twoFs_plain, twoFs_read, ?_, ?_⟩ <;> decide +kernel

/-- C172, C173: the hypotheses for runs of the other tools that end normally, and what is printed. -/
example : (findSymbolsCmd asciiUpper (fun _ cs n => cs.take n) twoFs 10
      [py "-v", py "D", py "A.arg", py "B.arg"]).2 = .ok () ∧
    symStdout (fun _ => true) (fun _ => 4096) (findSymbolsCmd asciiUpper (fun _ cs n => cs.take n)
      twoFs 10 [py "-v", py "D", py "A.arg", py "B.arg"]).1 =
      py "Reading A.arg...\nReading B.arg...\n{'B': {'1': {'simple': {'file': 'B.arg', 'line': 1, 'lognum': None, 'tagtype': ' ', 'card': <h800.arguscard.Card object at 0x1000>}}}}\n" ∧
    symStdout (fun _ => true) (fun _ => 4096) (findSymbolsCmd asciiUpper (fun _ cs n => cs.take n)
      twoFs 10 [py "-f", py "D", py "A.arg", py "B.arg"]).1 = py "['D']\n" ∧
    symStderr (fun _ => true) (fun _ => 4096) (findSymbolsCmd asciiUpper (fun _ cs n => cs.take n)
      twoFs 10 [py "X", py "B.arg"]).1 =
      py "B.arg: 0 errors encountered building symbol table.\nERROR: Undefined symbol \"X\"!\n" ∧
    (listSymbolsCmd asciiUpper twoFs 10 [py "A.arg", py "B.arg"]).2 = .ok () ∧
    symStderr (fun _ => true) (fun _ => 4096) (listSymbolsCmd asciiUpper twoFs 10
      [py "A.arg", py "B.arg"]).1 =
      py "*** ERROR: Symbol b is ill-formed (case)!\nCurrent definition: {'file': 'A.arg', 'line': 1, 'lognum': None, 'tagtype': None, 'card': <h800.arguscard.Card object at 0x1000>}\n1 errors found\n" ∧
    (parseCmd asciiUpper twoFs 10 [py "A.arg", py "B.arg"]).2 = .ok () ∧
    parseStderr (fun _ => true) (fun _ => 4096) (parseCmd asciiUpper twoFs 10
      [py "A.arg", py "B.arg"]).1 =
      py "*** ERROR: Symbol b is ill-formed (case)!\nCurrent definition: {'file': 'A.arg', 'line': 1, 'lognum': None, 'tagtype': None, 'card': <h800.arguscard.Card object at 0x1000>}\nA.arg: 1 errors encountered building symbol table.\nB.arg: 0 errors encountered building symbol table.\n" ∧
    ∀ f ∈ [py "A.arg", py "B.arg"], ' ' ∉ f ∧ '\n' ∉ f := by
  refine ⟨?_, ?_, ?_, ?_, ?_, ?_, ?_, ?_, ?_⟩ <;> decide +kernel

end H800
