import Verif.Lemmas.Repr
import Verif.Props.CheckBack
import Verif.Props.Order

/-!
Properties C171, C172 and C173: what the symbol tools print can be read back.
-/

namespace H800

open Spec

/-! ### C171 -/

/-- C171: the text of a string as it is printed in a definition is a Python literal for it, and has no
line breaks; a text can start in one way only with a literal. -/
theorem C171_literal (printable : Char → Bool) (s : Str) :
    Literal (reprStr printable s) s ∧ (∀ c ∈ reprStr printable s, c ≠ '\n' ∧ c ≠ '\r') ∧
    ∀ t u s' u', Literal t s' → reprStr printable s ++ u = t ++ u' → s = s' ∧ u = u' := by
  have hl := reprStr_literal printable s
  refine ⟨hl, ?_, fun t u s' u' h e => literal_unique hl h e⟩
  obtain ⟨q, hq, b, hb, hqb⟩ := hl
  intro c hc
  rw [hb] at hc
  rcases List.mem_cons.1 hc with rfl | hc
  · simp only [List.mem_cons, List.not_mem_nil, or_false] at hq
    rcases hq with rfl | rfl <;> decide
  · exact quoted_newline hq hqb c hc

/-- C171: what find-symbols prints of definitions or of a list of symbols can be read back: the
segments, subsegments and kinds, and the file, line, log number and tag type of each definition; and it
can be told where it ends. This does not depend on the addresses of the cards. -/
theorem C171_found (printable printable' : Char → Bool) (addr addr' : CodeCard → Nat) (f f' : Found)
    (s t : Str) (e : f.text printable addr ++ s = f'.text printable' addr' ++ t) :
    bare (.found f) = bare (.found f') ∧ s = t := by
  have hs : ∀ (p : Char → Bool) (l : List Str), ∃ r, reprList p l = '[' :: r := fun p l => ⟨_, rfl⟩
  have hd : ∀ (p : Char → Bool) (a : CodeCard → Nat) d, ∃ r,
      reprDict p (reprDict p (reprDict p (reprEntry p a))) d = '{' :: r := fun p a d => ⟨_, rfl⟩
  cases f with
  | nothing =>
    cases f' with
    | nothing => exact ⟨rfl, List.append_cancel_left e⟩
    | names l =>
      obtain ⟨r, h⟩ := hs printable' l
      simp only [Found.text, h, List.cons_append, List.cons.injEq] at e
      exact absurd e.1 (by decide)
    | defs d =>
      obtain ⟨r, h⟩ := hd printable' addr' d
      simp only [Found.text, h, List.cons_append, List.cons.injEq] at e
      exact absurd e.1 (by decide)
  | names l =>
    cases f' with
    | nothing =>
      obtain ⟨r, h⟩ := hs printable l
      simp only [Found.text, h, List.cons_append, List.cons.injEq] at e
      exact absurd e.1 (by decide)
    | names l' =>
      obtain ⟨e1, e2⟩ := readable_list printable printable' l l' s t e
      simp only [id] at e1
      exact ⟨by rw [e1], e2⟩
    | defs d =>
      obtain ⟨r, h⟩ := hs printable l
      obtain ⟨r', h'⟩ := hd printable' addr' d
      simp only [Found.text, h, h', List.cons_append, List.cons.injEq] at e
      exact absurd e.1 (by decide)
  | defs d =>
    cases f' with
    | nothing =>
      obtain ⟨r, h⟩ := hd printable addr d
      simp only [Found.text, h, List.cons_append, List.cons.injEq] at e
      exact absurd e.1 (by decide)
    | names l =>
      obtain ⟨r, h⟩ := hd printable addr d
      obtain ⟨r', h'⟩ := hs printable' l
      simp only [Found.text, h, h', List.cons_append, List.cons.injEq] at e
      exact absurd e.1 (by decide)
    | defs d' =>
      obtain ⟨e1, e2⟩ := readable_defs printable printable' addr addr' d d' s t e
      simp only [bare]
      exact ⟨by rw [e1], e2⟩

/-- Concrete cases of C171: quotes, a backslash, line breaks, and characters beyond ASCII. -/
example : reprStr (fun _ => true) (py "IT'S") = py "\"IT'S\"" ∧
    reprStr (fun _ => true) (py "A\\\n'\"") = py "'A\\\\\\n\\'\"'" ∧
    reprStr (fun _ => false) [Char.ofNat 228, Char.ofNat 8364, Char.ofNat 128512] =
      py "'\\xe4\\u20ac\\U0001f600'" ∧
    Literal (py "\"IT'S\"") (py "IT'S") :=
  ⟨by decide, by decide, by decide +kernel, reprStr_literal (fun _ => true) (py "IT'S")⟩

/-! ### Messages on the standard error stream -/

/-- A message of which it can be told what it is. -/
def TellErr : SymMsg → Prop
  | .diag d => d.err ≠ .multiple ∧ ' ' ∉ d.label ∧ '\n' ∉ d.label ∧ d.prev = [] ∧ d.command = none
  | .fileErrs f _ => '\n' ∉ f
  | .complexOnly s => '\n' ∉ s
  | .undefinedHeader => True
  | .noMatches s => '\n' ∉ s
  | .checkErrs _ => True
  | .total _ => True
  | .undefined s => '\n' ∉ s
  | .listing (.errors _) => True
  | _ => False

/-- The number of the kind of a message. -/
def errNum : SymMsg → Nat
  | .undefinedHeader => 0
  | .diag _ => 1
  | .noMatches _ => 2
  | .complexOnly _ => 3
  | .undefined _ => 4
  | .listing _ => 5
  | .total _ => 6
  | .fileErrs _ _ => 7
  | .checkErrs _ => 8
  | _ => 9

/-- The kind of the message that starts with this line. -/
def errKind (l : Str) : Nat :=
  match l.reverse with
  | [] => 0
  | '!' :: _ =>
    if l.head? = some '*' then 1
    else if l.head? = some ' ' then 2
    else if l[7]? = some 's' then 3
    else 4
  | 'd' :: _ => 5
  | _ :: 'd' :: _ => 6
  | r => if r[17]? = some 'd' then 7 else 8

theorem errKind_msg (p : Char → Bool) (a : CodeCard → Nat) {m : SymMsg} (h : TellErr m) :
    ∃ l r, m.text p a = l :: r ∧ errKind l = errNum m := by
  cases m with
  | diag d =>
    obtain ⟨h1, -⟩ := h
    cases hd : d.err <;>
      first
      | exact absurd hd h1
      | (simp only [SymMsg.text, Diag.text, hd]
         refine ⟨_, _, rfl, ?_⟩
         simp [errKind, errNum, SymErr.says])
  | fileErrs f n => refine ⟨_, _, rfl, ?_⟩; simp [errKind, errNum]
  | complexOnly s => refine ⟨_, _, rfl, ?_⟩; simp [errKind, errNum]
  | undefinedHeader => exact ⟨_, _, rfl, rfl⟩
  | noMatches s => refine ⟨_, _, rfl, ?_⟩; simp [errKind, errNum]
  | matches_ s l => exact absurd h id
  | checkErrs n => refine ⟨_, _, rfl, ?_⟩; simp [errKind, errNum]
  | total n => refine ⟨_, _, rfl, ?_⟩; simp [errKind, errNum]
  | undefined s => refine ⟨_, _, rfl, ?_⟩; simp [errKind, errNum]
  | found f => exact absurd h id
  | listing l =>
    cases l with
    | errors n => refine ⟨_, _, rfl, ?_⟩; simp [errKind, errNum, ListLine.text]
    | _ => exact absurd h id

theorem mem_one {l x : Str} (h : l ∈ [x]) (hx : '\n' ∉ x) : '\n' ∉ l := by
  rw [List.mem_singleton.1 h]; exact hx

theorem errText_newline (p : Char → Bool) (a : CodeCard → Nat) {m : SymMsg} (h : TellErr m) :
    ∀ l ∈ m.text p a, '\n' ∉ l := by
  intro l hl
  cases m with
  | diag d =>
    obtain ⟨h1, -, h2, -⟩ := h
    have e1 : '\n' ∉ py "*** ERROR: Symbol " ++ d.label ++ d.err.says := by
      simp only [List.mem_append, not_or]
      exact ⟨⟨by decide, h2⟩, by cases d.err <;> decide⟩
    have e2 : '\n' ∉ py "Current definition: " ++
        reprDef p a d.file d.line d.lognum d.tagtype d.card := by
      simp only [List.mem_append, not_or]
      exact ⟨by decide, reprDef_newline p a _ _ _ _ _⟩
    have : l = py "*** ERROR: Symbol " ++ d.label ++ d.err.says ∨
        l = py "Current definition: " ++ reprDef p a d.file d.line d.lognum d.tagtype d.card := by
      cases hd : d.err <;>
        first
        | exact absurd hd h1
        | (simp only [SymMsg.text, Diag.text, hd] at hl
           rcases List.mem_cons.1 hl with hl | hl
           · exact .inl hl
           · exact .inr (List.mem_singleton.1 hl))
    rcases this with rfl | rfl
    · exact e1
    · exact e2
  | fileErrs f n =>
    refine mem_one hl ?_
    simp only [List.mem_append, not_or]
    exact ⟨⟨⟨h, by decide⟩, pyStr_no_newline _⟩, by decide⟩
  | complexOnly s =>
    refine mem_one hl ?_
    simp only [List.mem_append, not_or]
    exact ⟨⟨by decide, h⟩, by decide⟩
  | undefinedHeader =>
    rcases List.mem_cons.1 hl with rfl | hl
    · simp
    · exact mem_one hl (by decide)
  | noMatches s =>
    refine mem_one hl ?_
    simp only [List.mem_append, not_or]
    exact ⟨⟨by decide, h⟩, by decide⟩
  | matches_ s l => exact absurd h id
  | checkErrs n =>
    refine mem_one hl ?_
    simp only [List.mem_append, not_or]
    exact ⟨pyStr_no_newline _, by decide⟩
  | total n =>
    refine mem_one hl ?_
    simp only [List.mem_append, not_or]
    exact ⟨⟨by decide, pyStr_no_newline _⟩, by decide⟩
  | undefined s =>
    refine mem_one hl ?_
    simp only [List.mem_append, not_or]
    exact ⟨⟨by decide, h⟩, by decide⟩
  | found f => exact absurd h id
  | listing l' =>
    cases l' with
    | errors n =>
      refine mem_one hl ?_
      simp only [ListLine.text, List.mem_append, not_or]
      exact ⟨pyStr_no_newline _, by decide⟩
    | _ => exact absurd h id

theorem cancel_ends {a b x y : Str} (e : a ++ x ++ b = a ++ y ++ b) : x = y := by
  rw [List.append_assoc, List.append_assoc] at e
  exact List.append_cancel_right (List.append_cancel_left e)

theorem natStr_inj {m n : Nat} (h : pyStr (m : Int) = pyStr (n : Int)) : m = n :=
  Int.ofNat_inj.1 (pyStr_inj h)

theorem says_inj : ∀ e e' : SymErr, e.says.tail = e'.says.tail → e = e' := by
  intro e e' h
  cases e <;> cases e' <;> first | rfl | exact absurd h (by decide)

theorem says_blank (e : SymErr) : ∃ r, e.says = ' ' :: r ∧ e.says.tail = r := by
  cases e <;> exact ⟨_, rfl, rfl⟩

theorem errText_inj (p p' : Char → Bool) (a a' : CodeCard → Nat) {m m' : SymMsg} {R R' : List Str}
    (h : TellErr m) (h' : TellErr m') (e : m.text p a ++ R = m'.text p' a' ++ R') :
    bare m = bare m' ∧ R = R' := by
  have hk : errNum m = errNum m' := by
    obtain ⟨l, r, h1, h2⟩ := errKind_msg p a h
    obtain ⟨l', r', h1', h2'⟩ := errKind_msg p' a' h'
    rw [h1, h1'] at e
    simp only [List.cons_append, List.cons.injEq] at e
    rw [← h2, ← h2', e.1]
  cases m with
  | diag d =>
    cases m' with
    | diag d' =>
      obtain ⟨h1, h2, -, h3, h4⟩ := h
      obtain ⟨h1', h2', -, h3', h4'⟩ := h'
      have two : ∀ (p : Char → Bool) (a : CodeCard → Nat) (d : Diag), d.err ≠ .multiple →
          (SymMsg.diag d).text p a = [py "*** ERROR: Symbol " ++ d.label ++ d.err.says,
            py "Current definition: " ++ reprDef p a d.file d.line d.lognum d.tagtype d.card] := by
        intro p a d hd
        cases he : d.err <;> first | exact absurd he hd | simp only [SymMsg.text, Diag.text, he]
      rw [two p a d h1, two p' a' d' h1'] at e
      obtain ⟨e1, e⟩ := List.cons.inj e
      obtain ⟨e2, e3⟩ := List.cons.inj e
      rw [List.append_assoc, List.append_assoc] at e1
      have e1 := List.append_cancel_left e1
      obtain ⟨r, hr, ht⟩ := says_blank d.err
      obtain ⟨r', hr', ht'⟩ := says_blank d'.err
      rw [hr, hr'] at e1
      obtain ⟨e4, e5⟩ := until_char h2 h2' e1
      have e6 := says_inj d.err d'.err (by rw [ht, ht', e5])
      have e2 := List.append_cancel_left e2
      obtain ⟨⟨f1, f2, f3, f4⟩, -⟩ := reprDef_reads p p' a a' (s := []) (t := []) (by rw [e2])
      refine ⟨?_, e3⟩
      simp only [bare]
      rw [e6, e4, f1, f2, f3, f4, h3, h3', h4, h4']
    | _ => cases hk
  | fileErrs f n =>
    cases m' with
    | fileErrs f' n' =>
      obtain ⟨e1, e2⟩ := List.cons.inj e
      have e1 := List.append_cancel_right e1
      have hc : ∀ n : Nat, ':' ∉ ' ' :: pyStr (n : Int) := by
        intro n hc
        rcases List.mem_cons.1 hc with hc | hc
        · exact absurd hc (by decide)
        · rcases pyStr_chars _ _ hc with hc | hc
          · exact absurd hc (by decide)
          · exact absurd hc.2 (by decide)
      rw [List.append_assoc, List.append_assoc] at e1
      obtain ⟨e3, e4⟩ := after_char (hc n) (hc n') e1
      rw [e3, natStr_inj (List.cons.inj e4).2]
      exact ⟨rfl, e2⟩
    | _ => cases hk
  | complexOnly s =>
    cases m' with
    | complexOnly s' =>
      have e := List.cons.inj e
      rw [cancel_ends e.1]
      exact ⟨rfl, e.2⟩
    | _ => cases hk
  | undefinedHeader =>
    cases m' with
    | undefinedHeader => exact ⟨rfl, List.append_cancel_left e⟩
    | _ => cases hk
  | noMatches s =>
    cases m' with
    | noMatches s' =>
      have e := List.cons.inj e
      rw [cancel_ends e.1]
      exact ⟨rfl, e.2⟩
    | _ => cases hk
  | matches_ s l => exact absurd h id
  | checkErrs n =>
    cases m' with
    | checkErrs n' =>
      have e := List.cons.inj e
      rw [natStr_inj (List.append_cancel_right e.1)]
      exact ⟨rfl, e.2⟩
    | _ => cases hk
  | total n =>
    cases m' with
    | total n' =>
      have e := List.cons.inj e
      rw [natStr_inj (cancel_ends e.1)]
      exact ⟨rfl, e.2⟩
    | _ => cases hk
  | undefined s =>
    cases m' with
    | undefined s' =>
      have e := List.cons.inj e
      rw [cancel_ends e.1]
      exact ⟨rfl, e.2⟩
    | _ => cases hk
  | found f => exact absurd h id
  | listing l =>
    cases m' with
    | listing l' =>
      cases l with
      | errors n =>
        cases l' with
        | errors n' =>
          have e := List.cons.inj e
          rw [natStr_inj (List.append_cancel_right e.1)]
          exact ⟨rfl, e.2⟩
        | _ => exact absurd h' id
      | _ => exact absurd h id
    | _ => cases hk

theorem errs_inj (p p' : Char → Bool) (a a' : CodeCard → Nat) {ms ms' : List SymMsg}
    (h : ∀ m ∈ ms, TellErr m) (h' : ∀ m ∈ ms', TellErr m)
    (e : ms.flatMap (SymMsg.text p a) = ms'.flatMap (SymMsg.text p' a')) :
    ms.map bare = ms'.map bare := by
  induction ms generalizing ms' with
  | nil =>
    cases ms' with
    | nil => rfl
    | cons m' ms' =>
      obtain ⟨l, r, hl, -⟩ := errKind_msg p' a' (h' m' (by simp))
      rw [List.flatMap_cons, hl] at e
      cases e
  | cons m ms ih =>
    cases ms' with
    | nil =>
      obtain ⟨l, r, hl, -⟩ := errKind_msg p a (h m (by simp))
      rw [List.flatMap_cons, hl] at e
      cases e
    | cons m' ms' =>
      rw [List.flatMap_cons, List.flatMap_cons] at e
      obtain ⟨e1, e2⟩ := errText_inj p p' a a' (h m (by simp)) (h' m' (by simp)) e
      rw [List.map_cons, List.map_cons, e1,
        ih (fun x hx => h x (by simp [hx])) (fun x hx => h' x (by simp [hx])) e2]

theorem isError_eq (m : SymMsg) : isError m = !m.onStdout := by
  cases m with
  | listing l => cases l <;> rfl
  | _ => rfl

theorem symStderr_eq (p : Char → Bool) (a : CodeCard → Nat) (out : List (VMsg SymMsg)) :
    symStderr p a out = printed ((errorsOf out).flatMap (SymMsg.text p a)) := by
  unfold symStderr errorsOf
  have : isError = fun m => !m.onStdout := funext isError_eq
  rw [this]
  congr 1
  induction out with
  | nil => rfl
  | cons m out ih =>
    rw [List.flatMap_cons, ih]
    cases m with
    | msg m =>
      rw [List.filterMap_cons_some (by rfl), List.filter_cons]
      cases hm : m.onStdout
      · simp [hm]
      · simp [hm]
    | reading f => rfl
    | meta_ f n => rfl
    | starred c => rfl
    | wrote f => rfl

theorem stderr_inj {p p' : Char → Bool} {a a' : CodeCard → Nat} {out out' : List (VMsg SymMsg)}
    (h : ∀ m ∈ errorsOf out, TellErr m) (h' : ∀ m ∈ errorsOf out', TellErr m)
    (e : symStderr p a out = symStderr p' a' out') :
    (errorsOf out).map bare = (errorsOf out').map bare := by
  rw [symStderr_eq, symStderr_eq] at e
  refine errs_inj p p' a a' h h' (text_lines_inj ?_ ?_ e)
  · intro l hl
    obtain ⟨m, hm, hl⟩ := List.mem_flatMap.1 hl
    exact errText_newline p a (h m hm) l hl
  · intro l hl
    obtain ⟨m, hm, hl⟩ := List.mem_flatMap.1 hl
    exact errText_newline p' a' (h' m hm) l hl

/-! ### What is printed by a run -/

section
variable {upper : Str → Str} {fs : FileSystem} {files : List Str} {srcs : List (Str × List Src)}

theorem fault_tell (hr : Read fs files srcs) {f : Str} {src : List Src} (hm : (f, src) ∈ srcs)
    {s : Src} (hs : s ∈ src) {d : Diag} (h : FaultReport upper s d) : TellErr (.diag d) := by
  obtain ⟨⟨-, l₀, hl, e, hk⟩, -, -, -, -, -, h1, h2⟩ := h
  obtain ⟨text, -, hex⟩ := hr.2 _ hm
  have hend := expand_endNewline hex (fun l h => readlines_line h)
  have hn := piece_newline (hend s hs) hl.2
  refine ⟨?_, ?_, ?_, h1, h2⟩
  · intro he
    rw [he] at hk
    exact hk
  · rw [e]; simp
  · rw [e]
    exact fun hc => hn (List.mem_of_mem_filter hc)

theorem reports_tell (hr : Read fs files srcs) (hn : ∀ f ∈ files, ' ' ∉ f ∧ '\n' ∉ f)
    {announce : Bool} {rs : List (List SymMsg)}
    (h : List.Forall₂ (FileReport upper announce) srcs rs) : ∀ m ∈ rs.flatten, TellErr m := by
  intro m hm
  obtain ⟨r, hr', hm⟩ := List.mem_flatten.1 hm
  obtain ⟨i, hi, rfl⟩ := List.mem_iff_getElem.1 hr'
  have hi' : i < srcs.length := by rw [h.length_eq]; exact hi
  obtain ⟨ds, hd, e⟩ := (List.forall₂_iff_get.1 h).2 i hi' hi
  have hmem : srcs.get ⟨i, hi'⟩ ∈ srcs := List.get_mem _ _
  simp only [List.get_eq_getElem] at e hd hmem
  rw [e] at hm
  rcases List.mem_append.1 hm with hm | hm
  · obtain ⟨d, hdm, rfl⟩ := List.mem_map.1 hm
    obtain ⟨j, hj, rfl⟩ := List.mem_iff_getElem.1 hdm
    have hj' := hj
    rw [← hd.length_eq] at hj'
    have := (List.forall₂_iff_get.1 hd).2 j hj' hj
    exact fault_tell (f := (srcs[i]).1) (src := (srcs[i]).2) hr hmem
      (List.mem_of_mem_filter (List.get_mem _ ⟨j, hj'⟩)) this
  · split at hm
    · rw [List.mem_singleton.1 hm]
      exact (hn _ (hr.1 ▸ List.mem_map.2 ⟨_, hmem, rfl⟩)).2
    · cases hm

theorem tag_tell (hr : Read fs files srcs) (hn : ∀ f ∈ files, ' ' ∉ f ∧ '\n' ∉ f) {tag kind : Str}
    (h : HasDef upper srcs tag kind) : ' ' ∉ tag ∧ '\n' ∉ tag := by
  obtain ⟨k, i, s, tt, seg, sub, hd⟩ := h
  exact (row_plainly hr hn hd (beforeFirst '.' s.file)).1

theorem notesAre_tell (hn : ∀ f ∈ files, ' ' ∉ f ∧ '\n' ∉ f) {l : List Extra}
    (h : NotesAre fs files l) : ∀ x ∈ l, ∃ n, x = .note n ∧ ' ' ∉ noteFile n ∧ '\n' ∉ noteFile n := by
  obtain ⟨notes, h1, rfl⟩ := h
  intro x hx
  obtain ⟨n, hn', rfl⟩ := List.mem_map.1 hx
  obtain ⟨m, hm, hnm⟩ := List.mem_flatten.1 hn'
  exact ⟨n, rfl, notes_tell h1 hn m hm n hnm⟩

end

/-- What is printed by a run of check-symbols that ends normally. -/
theorem checkSymbolsCmd_shape {upper : Str → Str} {extract : Str → List Str → Nat → List Str}
    {fs : FileSystem} {fuel : Nat} {argv files : List Str} {os : List Opt} {out : List (VMsg SymMsg)}
    (hm : Means CHECK_SYMBOLS_OPTS argv os files) (hp : PlainFiles files)
    (h : checkSymbolsCmd upper extract fs fuel argv = (out, .ok ())) :
    ∃ srcs rs, ∃ und : List (Str × List Str), ∃ tot : List SymMsg, Read fs files srcs ∧
      List.Forall₂ (FileReport upper true) srcs rs ∧
      (∀ p ∈ und, HasDef upper srcs p.1 (py "complex")) ∧
      (Chooses extract → ∀ p ∈ und, Suggested upper srcs p.2) ∧
      (tot = [] ∨ ∃ n, tot = [.total n]) ∧
      out.filterMap usual = rs.flatten ++ und.map (fun p => .complexOnly p.1) ++
        (if und = [] then [] else .undefinedHeader :: und.map (fun p =>
          if p.2 = [] then .noMatches p.1 else .matches_ p.1 p.2) ++ [.checkErrs und.length]) ++
        tot ∧
      (NotesAre fs files (out.filterMap extra) ∨ out.filterMap extra = []) := by
  rcases means_values C153_good.2.1 hm with ⟨-, e⟩ | ⟨-, v, e, -⟩
  · unfold checkSymbolsCmd at h
    rw [e] at h
    cases h
  unfold checkSymbolsCmd at h
  rw [e] at h
  simp only at h
  generalize optValue v (py "complex") = cx at h
  generalize optValue v (py "verbose") = vb at h
  obtain ⟨c1, c2, c3⟩ := C151_check_symbols vb upper extract fs fuel cx files
  rw [h] at c1 c2
  obtain ⟨a1, a2⟩ := C147_check_success upper extract fs fuel cx files hp
  obtain ⟨rep, hrep⟩ := a1 (checkSymbolsRun upper extract fs fuel cx files).1 (Prod.ext rfl c2.symm)
  obtain ⟨srcs, rs, hr, h4, hrun⟩ := a2 rep hrep
  obtain ⟨srcs1, hr1, -, h1, h2, h3⟩ := C85_total upper extract fs fuel _ files rep hp hrep
  obtain rfl := read_unique hr hr1
  rw [hrun] at c1
  refine ⟨srcs, rs, rep.undefined, _, hr, h4, ?_, ?_, ?_, c1, ?_⟩
  · intro p hp'
    exact ((h2 p.1).1 (List.mem_map.2 ⟨p, hp', rfl⟩)).2.1
  · intro hex p hp'
    obtain ⟨srcs3, hr3, h5⟩ := C85_matches upper extract hex fs fuel _ files rep hp hrep
    obtain rfl := read_unique hr hr3
    exact h5 p hp'
  · cases rep.total with
    | none => exact .inl rfl
    | some n => exact .inr ⟨n, rfl⟩
  · cases vb with
    | true => exact .inl (C152_symbols upper extract fs fuel files out (Or.inl ⟨_, h⟩))
    | false =>
      rw [h] at c3
      simp only at c3
      right
      rw [c3, extra_msgs]

/-- The same for list-symbols. -/
theorem listSymbolsCmd_shape {upper : Str → Str} {fs : FileSystem} {fuel : Nat}
    {argv files : List Str} {os : List Opt} {out : List (VMsg SymMsg)}
    (hm : Means VERBOSE_OPTS argv os files) (hp : PlainFiles files)
    (h : listSymbolsCmd upper fs fuel argv = (out, .ok ())) :
    ∃ srcs rs l, Read fs files srcs ∧ List.Forall₂ (FileReport upper false) srcs rs ∧
      listSymbols upper fs fuel files = .ok l ∧ out.filterMap usual = rs.flatten ++ l.map .listing ∧
      (NotesAre fs files (out.filterMap extra) ∨ out.filterMap extra = []) := by
  rcases means_values C153_good.2.2.2.2.1 hm with ⟨-, e⟩ | ⟨-, v, e, -⟩
  · unfold listSymbolsCmd at h
    rw [e] at h
    cases h
  unfold listSymbolsCmd at h
  rw [e] at h
  simp only at h
  generalize optValue v (py "verbose") = vb at h
  obtain ⟨c1, c2, c3⟩ := C151_list_symbols vb upper fs fuel files
  rw [h] at c1 c2
  obtain ⟨a1, a2⟩ := C147_list_success upper fs fuel files hp
  obtain ⟨l, hl⟩ := a1 (listSymbolsRun upper fs fuel files).1 (Prod.ext rfl c2.symm)
  obtain ⟨srcs, rs, hr, h4, hrun⟩ := a2 l hl
  rw [hrun] at c1
  refine ⟨srcs, rs, l, hr, h4, hl, c1, ?_⟩
  cases vb with
  | true => exact .inl (C152_symbols upper (fun _ _ _ => []) fs fuel files out (Or.inr (Or.inl h)))
  | false =>
    rw [h] at c3
    simp only at c3
    right
    rw [c3, extra_msgs]

/-- The same for find-symbols. -/
theorem findSymbolsCmd_shape {upper : Str → Str} {extract : Str → List Str → Nat → List Str}
    {fs : FileSystem} {fuel : Nat} {argv files : List Str} {symbol : Str} {os : List Opt}
    {out : List (VMsg SymMsg)}
    (hm : Means FIND_SYMBOLS_OPTS argv os (symbol :: files)) (hp : PlainFiles files)
    (h : findSymbolsCmd upper extract fs fuel argv = (out, .ok ())) :
    ∃ srcs rs, ∃ tail : List SymMsg, Read fs files srcs ∧
      List.Forall₂ (FileReport upper true) srcs rs ∧
      (tail = [] ∨ tail = [.undefined symbol] ∨ ∃ f, tail = [.found f]) ∧
      out.filterMap usual = rs.flatten ++ tail ∧
      (NotesAre fs files (out.filterMap extra) ∨ out.filterMap extra = []) := by
  rcases means_values C153_good.2.2.1 hm with ⟨-, e⟩ | ⟨-, v, e, -⟩
  · unfold findSymbolsCmd at h
    rw [e] at h
    cases h
  unfold findSymbolsCmd at h
  rw [e] at h
  simp only at h
  generalize optValue v (py "verbose") = vb at h
  generalize optValue v (py "begin") = o1 at h
  generalize optValue v (py "end") = o2 at h
  generalize optValue v (py "fuzzy") = o3 at h
  generalize optValue v (py "exact") = o4 at h
  obtain ⟨c1, c2, c3⟩ := C151_find_symbols vb upper extract fs fuel o1 o2 o3 o4 (symbol :: files)
  rw [h] at c1 c2
  obtain ⟨a1, a2⟩ := C147_find_success upper extract fs fuel o1 o2 o3 o4 symbol files hp
  obtain ⟨r, hr'⟩ := a1 (findSymbolsRun upper extract fs fuel o1 o2 o3 o4 (symbol :: files)).1
    (Prod.ext rfl c2.symm)
  obtain ⟨srcs, rs, hr, h4, hrun⟩ := a2 r hr'
  rw [hrun] at c1
  refine ⟨srcs, rs, _, hr, h4, ?_, c1, ?_⟩
  · cases r with
    | some f => exact .inr (.inr ⟨f, rfl⟩)
    | none =>
      simp only
      split
      · exact .inl rfl
      · exact .inr (.inl rfl)
  cases vb with
  | true =>
    exact .inl (C152_symbols upper extract fs fuel files out (Or.inr (Or.inr ⟨_, _, _, _, _, h⟩)))
  | false =>
    rw [h] at c3
    simp only at c3
    right
    rw [c3, extra_msgs]

/-! ### C172 -/

/-- The error in a message. -/
def diagOf : SymMsg → Option Diag
  | .diag d => some d
  | _ => none

/-- The error in a message but for the card. -/
def bareDiag : Bare → Option Bare
  | .error e l f n lg tt pr c => some (.error e l f n lg tt pr c)
  | _ => none

theorem bareDiag_bare (ms : List SymMsg) :
    (ms.map bare).filterMap bareDiag = (ms.filterMap diagOf).map fun d => bare (.diag d) := by
  induction ms with
  | nil => rfl
  | cons m ms ih =>
    cases m with
    | diag d =>
      rw [List.map_cons, List.filterMap_cons_some (by rfl), List.filterMap_cons_some (by rfl), ih]
      rfl
    | found f =>
      cases f <;>
      · rw [List.map_cons, List.filterMap_cons_none (by rfl), List.filterMap_cons_none (by rfl), ih]
    | _ => rw [List.map_cons, List.filterMap_cons_none (by rfl), List.filterMap_cons_none (by rfl), ih]

open Classical in
theorem reports_diags {upper : Str → Str} {announce : Bool} {srcs : List (Str × List Src)}
    {rs : List (List SymMsg)} (h : List.Forall₂ (FileReport upper announce) srcs rs) :
    List.Forall₂ (FaultReport upper)
      ((srcs.flatMap (·.2)).filter fun s => decide (InError upper s))
      (rs.flatten.filterMap diagOf) := by
  induction h with
  | nil => exact .nil
  | @cons q r srcs rs hq _ ih =>
    rw [List.flatMap_cons, List.filter_append, List.flatten_cons, List.filterMap_append]
    obtain ⟨ds, hd, rfl⟩ := hq
    refine List.rel_append ?_ ih
    rw [List.filterMap_append, List.filterMap_map]
    have : (if announce then [SymMsg.fileErrs q.1 ds.length] else []).filterMap diagOf = [] := by
      split <;> rfl
    rw [this, List.append_nil]
    have e : diagOf ∘ SymMsg.diag = some := rfl
    rw [e, List.filterMap_some]
    exact hd

theorem faults_same {upper upper' : Str → Str} {l l' : List Src} {ds ds' : List Diag}
    (h : List.Forall₂ (FaultReport upper) l ds) (h' : List.Forall₂ (FaultReport upper') l' ds')
    (e : ds.map (fun d => bare (.diag d)) = ds'.map fun d => bare (.diag d)) :
    List.Forall₂ (fun s s' => s.file = s'.file ∧ s.num = s'.num ∧
      ∀ e l, Fault upper s e l ↔ Fault upper' s' e l) l l' := by
  induction h generalizing l' ds' with
  | nil =>
    cases h' with
    | nil => exact .nil
    | cons => cases e
  | @cons s d l ds hs _ ih =>
    cases h' with
    | nil => cases e
    | @cons s' d' l' ds' hs' hl' =>
      rw [List.map_cons, List.map_cons] at e
      obtain ⟨e1, e2⟩ := List.cons.inj e
      refine .cons ?_ (ih hl' e2)
      simp only [bare, Bare.error.injEq] at e1
      obtain ⟨f1, f2, f3, f4, -⟩ := e1
      obtain ⟨g1, g2, g3, -⟩ := hs
      obtain ⟨g1', g2', g3', -⟩ := hs'
      refine ⟨?_, ?_, fun er lb => ?_⟩
      · rw [g2, g2'] at f3; exact Option.some.inj f3
      · rw [g3, g3'] at f4; exact Int.ofNat_inj.1 f4
      · rw [f1, f2] at g1
        constructor
        · intro hf
          obtain ⟨rfl, rfl⟩ := (C146_once upper s).2 _ _ _ _ hf g1
          exact g1'
        · intro hf
          obtain ⟨rfl, rfl⟩ := (C146_once upper' s').2 _ _ _ _ hf g1'
          exact g1

/-- What is needed of a run so that its errors can be read back. -/
def ErrRun (upper : Str → Str) (fs : FileSystem) (files : List Str) (srcs : List (Str × List Src))
    (errs : List SymMsg) : Prop :=
  Read fs files srcs ∧ (∀ m ∈ errs, TellErr m) ∧ ∃ announce rs,
    List.Forall₂ (FileReport upper announce) srcs rs ∧
    errs.filterMap diagOf = rs.flatten.filterMap diagOf

theorem errRun_of {upper : Str → Str} {fs : FileSystem} {files : List Str}
    {srcs : List (Str × List Src)} {out : List (VMsg SymMsg)} {announce : Bool}
    {rs : List (List SymMsg)} {tail : List SymMsg} (hr : Read fs files srcs)
    (hn : ∀ f ∈ files, ' ' ∉ f ∧ '\n' ∉ f) (h : List.Forall₂ (FileReport upper announce) srcs rs)
    (hu : out.filterMap usual = rs.flatten ++ tail) (ht : ∀ m ∈ tail, isError m = true → TellErr m)
    (hd : ∀ m ∈ tail, diagOf m = none) : ErrRun upper fs files srcs (errorsOf out) := by
  refine ⟨hr, ?_, announce, rs, h, ?_⟩
  · intro m hm
    unfold errorsOf at hm
    obtain ⟨hm, he⟩ := List.mem_filter.1 hm
    rw [hu] at hm
    rcases List.mem_append.1 hm with hm | hm
    · exact reports_tell hr hn h m hm
    · exact ht m hm he
  · unfold errorsOf
    rw [hu, List.filterMap_filter]
    have e : (fun m => if isError m = true then diagOf m else none) = diagOf := by
      funext m
      cases m with
      | listing l => cases l <;> rfl
      | _ => rfl
    rw [e, List.filterMap_append, List.filterMap_eq_nil_iff.2 hd, List.append_nil]

theorem errRun_same {upper upper' : Str → Str} {fs fs' : FileSystem} {files files' : List Str}
    {srcs srcs' : List (Str × List Src)} {errs errs' : List SymMsg}
    (h : ErrRun upper fs files srcs errs) (h' : ErrRun upper' fs' files' srcs' errs')
    (e : errs.map bare = errs'.map bare) : SameFaults upper upper' srcs srcs' := by
  obtain ⟨-, -, an, rs, h1, h2⟩ := h
  obtain ⟨-, -, an', rs', h1', h2'⟩ := h'
  refine faults_same (reports_diags h1) (reports_diags h1') ?_
  rw [← h2, ← h2', ← bareDiag_bare, ← bareDiag_bare, e]

/-- C172: if two runs of check-symbols write the same text on the standard error stream, then they say
the same there: the same errors with labels, files, line numbers, log numbers and tag types, the same
numbers of errors, and the same symbols without simple definition. So the lines in error are at the
same places, and they have the same faults. -/
theorem C172_check (printable printable' : Char → Bool) (addr addr' : CodeCard → Nat)
    (upper upper' : Str → Str) (extract extract' : Str → List Str → Nat → List Str)
    (fs fs' : FileSystem) (fuel fuel' : Nat) (argv argv' files files' : List Str) (os os' : List Opt)
    (out out' : List (VMsg SymMsg))
    (hm : Means CHECK_SYMBOLS_OPTS argv os files) (hm' : Means CHECK_SYMBOLS_OPTS argv' os' files')
    (hp : PlainFiles files) (hp' : PlainFiles files')
    (hn : ∀ f ∈ files, ' ' ∉ f ∧ '\n' ∉ f) (hn' : ∀ f ∈ files', ' ' ∉ f ∧ '\n' ∉ f)
    (h : checkSymbolsCmd upper extract fs fuel argv = (out, .ok ()))
    (h' : checkSymbolsCmd upper' extract' fs' fuel' argv' = (out', .ok ()))
    (e : symStderr printable addr out = symStderr printable' addr' out') :
    (errorsOf out).map bare = (errorsOf out').map bare ∧
    ∃ srcs srcs', Read fs files srcs ∧ Read fs' files' srcs' ∧ SameFaults upper upper' srcs srcs' := by
  have key : ∀ {upper : Str → Str} {extract : Str → List Str → Nat → List Str} {fs : FileSystem}
      {fuel : Nat} {argv files : List Str} {os : List Opt} {out : List (VMsg SymMsg)},
      Means CHECK_SYMBOLS_OPTS argv os files → PlainFiles files →
      (∀ f ∈ files, ' ' ∉ f ∧ '\n' ∉ f) →
      checkSymbolsCmd upper extract fs fuel argv = (out, .ok ()) →
      ∃ srcs, ErrRun upper fs files srcs (errorsOf out) := by
    intro upper extract fs fuel argv files os out hm hp hn h
    obtain ⟨srcs, rs, und, tot, hr, h1, h2, -, h3, h4, -⟩ := checkSymbolsCmd_shape hm hp h
    refine ⟨srcs, errRun_of hr hn h1 (by rw [h4, List.append_assoc, List.append_assoc]) ?_ ?_⟩
    · intro m hm' he
      rcases List.mem_append.1 hm' with hm' | hm'
      · obtain ⟨q, hq, rfl⟩ := List.mem_map.1 hm'
        exact (tag_tell hr hn (h2 q hq)).2
      · rcases List.mem_append.1 hm' with hm' | hm'
        · split at hm'
          · cases hm'
          · rcases List.mem_cons.1 hm' with rfl | hm'
            · trivial
            · rcases List.mem_append.1 hm' with hm' | hm'
              · obtain ⟨q, hq, rfl⟩ := List.mem_map.1 hm'
                split at he
                · rw [if_pos (by assumption)]
                  exact (tag_tell hr hn (h2 q hq)).2
                · cases he
              · rw [List.mem_singleton.1 hm']
                trivial
        · rcases h3 with rfl | ⟨n, rfl⟩
          · cases hm'
          · rw [List.mem_singleton.1 hm']
            trivial
    · intro m hm'
      rcases List.mem_append.1 hm' with hm' | hm'
      · obtain ⟨q, hq, rfl⟩ := List.mem_map.1 hm'
        rfl
      · rcases List.mem_append.1 hm' with hm' | hm'
        · split at hm'
          · cases hm'
          · rcases List.mem_cons.1 hm' with rfl | hm'
            · rfl
            · rcases List.mem_append.1 hm' with hm' | hm'
              · obtain ⟨q, hq, rfl⟩ := List.mem_map.1 hm'
                split <;> rfl
              · rw [List.mem_singleton.1 hm']
                rfl
        · rcases h3 with rfl | ⟨n, rfl⟩
          · cases hm'
          · rw [List.mem_singleton.1 hm']
            rfl
  obtain ⟨srcs, k⟩ := key hm hp hn h
  obtain ⟨srcs', k'⟩ := key hm' hp' hn' h'
  have he := stderr_inj k.2.1 k'.2.1 e
  exact ⟨he, srcs, srcs', k.1, k'.1, errRun_same k k' he⟩

/-- C172: the same for list-symbols. -/
theorem C172_list (printable printable' : Char → Bool) (addr addr' : CodeCard → Nat)
    (upper upper' : Str → Str)
    (fs fs' : FileSystem) (fuel fuel' : Nat) (argv argv' files files' : List Str) (os os' : List Opt)
    (out out' : List (VMsg SymMsg))
    (hm : Means VERBOSE_OPTS argv os files) (hm' : Means VERBOSE_OPTS argv' os' files')
    (hp : PlainFiles files) (hp' : PlainFiles files')
    (hn : ∀ f ∈ files, ' ' ∉ f ∧ '\n' ∉ f) (hn' : ∀ f ∈ files', ' ' ∉ f ∧ '\n' ∉ f)
    (h : listSymbolsCmd upper fs fuel argv = (out, .ok ()))
    (h' : listSymbolsCmd upper' fs' fuel' argv' = (out', .ok ()))
    (e : symStderr printable addr out = symStderr printable' addr' out') :
    (errorsOf out).map bare = (errorsOf out').map bare ∧
    ∃ srcs srcs', Read fs files srcs ∧ Read fs' files' srcs' ∧ SameFaults upper upper' srcs srcs' := by
  have key : ∀ {upper : Str → Str} {fs : FileSystem}
      {fuel : Nat} {argv files : List Str} {os : List Opt} {out : List (VMsg SymMsg)},
      Means VERBOSE_OPTS argv os files → PlainFiles files →
      (∀ f ∈ files, ' ' ∉ f ∧ '\n' ∉ f) →
      listSymbolsCmd upper fs fuel argv = (out, .ok ()) →
      ∃ srcs, ErrRun upper fs files srcs (errorsOf out) := by
    intro upper fs fuel argv files os out hm hp hn h
    obtain ⟨srcs, rs, l, hr, h1, -, h4, -⟩ := listSymbolsCmd_shape hm hp h
    refine ⟨srcs, errRun_of hr hn h1 h4 ?_ ?_⟩
    · intro m hm' he
      obtain ⟨x, -, rfl⟩ := List.mem_map.1 hm'
      cases x with
      | errors n => trivial
      | _ => cases he
    · intro m hm'
      obtain ⟨x, -, rfl⟩ := List.mem_map.1 hm'
      rfl
  obtain ⟨srcs, k⟩ := key hm hp hn h
  obtain ⟨srcs', k'⟩ := key hm' hp' hn' h'
  have he := stderr_inj k.2.1 k'.2.1 e
  exact ⟨he, srcs, srcs', k.1, k'.1, errRun_same k k' he⟩

/-- C172: the same for find-symbols; here also the symbol may be said to be undefined. -/
theorem C172_find (printable printable' : Char → Bool) (addr addr' : CodeCard → Nat)
    (upper upper' : Str → Str) (extract extract' : Str → List Str → Nat → List Str)
    (fs fs' : FileSystem) (fuel fuel' : Nat) (argv argv' files files' : List Str)
    (symbol symbol' : Str) (os os' : List Opt) (out out' : List (VMsg SymMsg))
    (hm : Means FIND_SYMBOLS_OPTS argv os (symbol :: files))
    (hm' : Means FIND_SYMBOLS_OPTS argv' os' (symbol' :: files'))
    (hp : PlainFiles files) (hp' : PlainFiles files') (hs : '\n' ∉ symbol) (hs' : '\n' ∉ symbol')
    (hn : ∀ f ∈ files, ' ' ∉ f ∧ '\n' ∉ f) (hn' : ∀ f ∈ files', ' ' ∉ f ∧ '\n' ∉ f)
    (h : findSymbolsCmd upper extract fs fuel argv = (out, .ok ()))
    (h' : findSymbolsCmd upper' extract' fs' fuel' argv' = (out', .ok ()))
    (e : symStderr printable addr out = symStderr printable' addr' out') :
    (errorsOf out).map bare = (errorsOf out').map bare ∧
    ∃ srcs srcs', Read fs files srcs ∧ Read fs' files' srcs' ∧ SameFaults upper upper' srcs srcs' := by
  have key : ∀ {upper : Str → Str} {extract : Str → List Str → Nat → List Str} {fs : FileSystem}
      {fuel : Nat} {argv files : List Str} {symbol : Str} {os : List Opt} {out : List (VMsg SymMsg)},
      Means FIND_SYMBOLS_OPTS argv os (symbol :: files) → PlainFiles files → '\n' ∉ symbol →
      (∀ f ∈ files, ' ' ∉ f ∧ '\n' ∉ f) →
      findSymbolsCmd upper extract fs fuel argv = (out, .ok ()) →
      ∃ srcs, ErrRun upper fs files srcs (errorsOf out) := by
    intro upper extract fs fuel argv files symbol os out hm hp hs hn h
    obtain ⟨srcs, rs, tail, hr, h1, h3, h4, -⟩ := findSymbolsCmd_shape hm hp h
    refine ⟨srcs, errRun_of hr hn h1 h4 ?_ ?_⟩
    · intro m hm' he
      rcases h3 with rfl | rfl | ⟨f, rfl⟩
      · cases hm'
      · rw [List.mem_singleton.1 hm']; exact hs
      · rw [List.mem_singleton.1 hm'] at he; cases he
    · intro m hm'
      rcases h3 with rfl | rfl | ⟨f, rfl⟩
      · cases hm'
      · rw [List.mem_singleton.1 hm']; rfl
      · rw [List.mem_singleton.1 hm']; rfl
  obtain ⟨srcs, k⟩ := key hm hp hs hn h
  obtain ⟨srcs', k'⟩ := key hm' hp' hs' hn' h'
  have he := stderr_inj k.2.1 k'.2.1 e
  exact ⟨he, srcs, srcs', k.1, k'.1, errRun_same k k' he⟩

/-- The message of the symbol table in what parse prints. -/
def symPart : Told ParseMsg → Option SymMsg
  | .inr (.inl m) => some m
  | _ => none

theorem symbolsOf_eq (out : List (VMsg ParseMsg)) : symbolsOf out = (out.map told).filterMap symPart := by
  unfold symbolsOf
  rw [List.filterMap_filterMap, List.filterMap_map]
  congr 1
  funext x
  cases x with
  | msg m => cases m <;> rfl
  | _ => rfl

theorem notesIf_symPart (v : Prop) (m : List Note) :
    (notesIf v m : List (Told ParseMsg)).filterMap symPart = [] := by
  unfold notesIf
  split
  · rw [List.filterMap_map, List.filterMap_eq_nil_iff]
    intro n _
    rfl
  · rfl

theorem blocks_reports {upper : Str → Str} {fs : FileSystem} {v : Prop} :
    ∀ {files : List Str} {b : List (Told ParseMsg)},
    Blocks fs v (Lifted (β := ParseMsg) .inl (ReportTold upper true)) files b →
    ∃ srcs rs, Read fs files srcs ∧ List.Forall₂ (FileReport upper true) srcs rs ∧
      b.filterMap symPart = rs.flatten := by
  rintro files b ⟨bs, h, rfl⟩
  induction h with
  | nil => exact ⟨[], [], ⟨rfl, nofun⟩, .nil, rfl⟩
  | cons hb _ ih =>
    obtain ⟨srcs, rs, h1, h2, h3⟩ := ih
    obtain ⟨-, m, src, l, -, h5, ⟨l', ⟨ms, h6, rfl⟩, rfl⟩, rfl⟩ := hb
    refine ⟨(_, src) :: srcs, ms :: rs, ⟨?_, ?_⟩, .cons h6 h2, ?_⟩
    · rw [List.map_cons, h1.1]
    · intro p hp
      rcases List.mem_cons.1 hp with rfl | hp
      · exact h5
      · exact h1.2 p hp
    · rw [List.flatten_cons, List.filterMap_append, h3, List.filterMap_append, notesIf_symPart,
        List.nil_append, List.flatten_cons, List.map_map, List.filterMap_map]
      congr 1
      exact List.filterMap_some

theorem blocks_checks {fs : FileSystem} {v : Prop}
    {about : Str → List Src → List (Told CheckMsg) → Prop} {files : List Str}
    {b : List (Told ParseMsg)} (h : Blocks fs v (Lifted (β := ParseMsg) .inr about) files b) :
    b.filterMap symPart = [] := by
  obtain ⟨bs, h, rfl⟩ := h
  induction h with
  | nil => rfl
  | cons hb _ ih =>
    obtain ⟨-, m, src, l, -, -, ⟨l', -, rfl⟩, rfl⟩ := hb
    rw [List.flatten_cons, List.filterMap_append, ih, List.filterMap_append, notesIf_symPart,
      List.nil_append, List.append_nil, List.filterMap_map, List.filterMap_eq_nil_iff]
    intro x _
    cases x <;> rfl

theorem parseStderr_eq (p : Char → Bool) (a : CodeCard → Nat) (out : List (VMsg ParseMsg)) :
    parseStderr p a out = printed ((symbolsOf out).flatMap (SymMsg.text p a)) := by
  unfold parseStderr symbolsOf
  congr 1
  induction out with
  | nil => rfl
  | cons x out ih =>
    rw [List.flatMap_cons, ih]
    cases x with
    | msg m => cases m <;> rfl
    | _ => rfl

/-- What parse prints about the symbol table in a run that ends normally. -/
theorem parseCmd_shape {upper : Str → Str} {fs : FileSystem} {fuel : Nat} {argv files : List Str}
    {os : List Opt} {out : List (VMsg ParseMsg)} (hm : Means PARSE_OPTS argv os files)
    (hp : PlainFiles files) (h : parseCmd upper fs fuel argv = (out, .ok ())) :
    ∃ srcs rs, Read fs files srcs ∧ List.Forall₂ (FileReport upper true) srcs rs ∧
      symbolsOf out = rs.flatten := by
  have hh : ¬ ∃ o ∈ os, o.dest = none := by
    rcases means_values C153_good.2.2.2.2.2.1 hm with ⟨-, e⟩ | ⟨hh, -, -, -⟩
    · unfold parseCmd at h
      rw [e] at h
      cases h
    · exact hh
  have hf : files ≠ [] := by
    rintro rfl
    have := parseCmd_run hm h
    cases this
  rcases C170_parse upper fs fuel argv files os out (.ok ()) hm hh hf hp (by simp) h with
    ⟨-, b₁, b₂, n, k, h1, h2, h3⟩ | ⟨⟨e, he⟩, -⟩
  · obtain ⟨srcs, rs, k1, k2, k3⟩ := blocks_reports h1
    refine ⟨srcs, rs, k1, k2, ?_⟩
    rw [symbolsOf_eq, h3, List.filterMap_append, List.filterMap_append, k3, blocks_checks h2]
    simp [symPart]
  · cases he

/-- C172: the same for parse, which writes nothing else on the standard error stream. -/
theorem C172_parse (printable printable' : Char → Bool) (addr addr' : CodeCard → Nat)
    (upper upper' : Str → Str) (fs fs' : FileSystem) (fuel fuel' : Nat)
    (argv argv' files files' : List Str) (os os' : List Opt) (out out' : List (VMsg ParseMsg))
    (hm : Means PARSE_OPTS argv os files) (hm' : Means PARSE_OPTS argv' os' files')
    (hp : PlainFiles files) (hp' : PlainFiles files')
    (hn : ∀ f ∈ files, ' ' ∉ f ∧ '\n' ∉ f) (hn' : ∀ f ∈ files', ' ' ∉ f ∧ '\n' ∉ f)
    (h : parseCmd upper fs fuel argv = (out, .ok ()))
    (h' : parseCmd upper' fs' fuel' argv' = (out', .ok ()))
    (e : parseStderr printable addr out = parseStderr printable' addr' out') :
    (symbolsOf out).map bare = (symbolsOf out').map bare ∧
    ∃ srcs srcs', Read fs files srcs ∧ Read fs' files' srcs' ∧ SameFaults upper upper' srcs srcs' := by
  obtain ⟨srcs, rs, hr, h1, h2⟩ := parseCmd_shape hm hp h
  obtain ⟨srcs', rs', hr', h1', h2'⟩ := parseCmd_shape hm' hp' h'
  have k : ErrRun upper fs files srcs (symbolsOf out) :=
    ⟨hr, h2 ▸ reports_tell hr hn h1, true, rs, h1, by rw [h2]⟩
  have k' : ErrRun upper' fs' files' srcs' (symbolsOf out') :=
    ⟨hr', h2' ▸ reports_tell hr' hn' h1', true, rs', h1', by rw [h2']⟩
  rw [parseStderr_eq, parseStderr_eq] at e
  have nl : ∀ {p : Char → Bool} {a : CodeCard → Nat} {ms : List SymMsg}, (∀ m ∈ ms, TellErr m) →
      ∀ l ∈ ms.flatMap (SymMsg.text p a), '\n' ∉ l := by
    intro p a ms hms l hl
    obtain ⟨m, hm, hl⟩ := List.mem_flatMap.1 hl
    exact errText_newline p a (hms m hm) l hl
  have he := errs_inj _ _ _ _ k.2.1 k'.2.1 (text_lines_inj (nl k.2.1) (nl k'.2.1) e)
  exact ⟨he, srcs, srcs', hr, hr', errRun_same k k' he⟩

/-- Two files with an error at the same place, and not the same otherwise. -/
def faultFs (op : Str) : FileSystem := fun f =>
  if f = py "A.arg" then some (py "        A          TN\n        1A         " ++ op ++ py "\n") else none

/-- A case of C172. -/
example : Means CHECK_SYMBOLS_OPTS [py "A.arg"] [] [py "A.arg"] ∧ PlainFiles [py "A.arg"] ∧
    (checkSymbolsCmd asciiUpper (fun _ _ _ => []) (faultFs (py "TN")) 10 [py "A.arg"]).2 = .ok () ∧
    (checkSymbolsCmd asciiUpper (fun _ _ _ => []) (faultFs (py "TX")) 10 [py "A.arg"]).2 = .ok () ∧
    symStderr (fun _ => true) (fun _ => 0)
      (checkSymbolsCmd asciiUpper (fun _ _ _ => []) (faultFs (py "TN")) 10 [py "A.arg"]).1 =
    symStderr (fun _ => true) (fun _ => 0)
      (checkSymbolsCmd asciiUpper (fun _ _ _ => []) (faultFs (py "TX")) 10 [py "A.arg"]).1 ∧
    symStderr (fun _ => true) (fun _ => 0)
      (checkSymbolsCmd asciiUpper (fun _ _ _ => []) (faultFs (py "TX")) 10 [py "A.arg"]).1 ≠ [] := by
  refine ⟨.plain (.inr (by decide)) .done, ?_, by decide +kernel, by decide +kernel, by decide +kernel,
    by decide +kernel⟩
  rw [plainFiles_iff]
  intro f hf
  rw [List.mem_singleton] at hf
  subst hf
  exact ⟨by decide, by decide⟩

end H800
