import Verif.Lemmas.Display

/-!
Property C197: definitions and lists of symbols are printed as Python writes these values.
-/

namespace H800

open Spec

/-- C197: a string is printed as Python writes it, and Python can write it in this way only. -/
theorem C197_string (printable : Char → Bool) (s t : Str) :
    StrText printable s t ↔ t = reprStr printable s :=
  ⟨fun h => strText_inj h (reprStr_text printable s), fun h => h ▸ reprStr_text printable s⟩

/-- C197: what find-symbols prints is what Python writes for None, the list of names, or the dict of the
definitions by segment, subsegment and kind. -/
theorem C197_found (printable : Char → Bool) (addr : CodeCard → Nat) (f : Found) (t : Str) :
    Display printable (foundVal addr f) t ↔ SymMsg.text printable addr (.found f) = [t] := by
  have h : Display printable (foundVal addr f) (f.text printable addr) := by
    cases f with
    | nothing => exact .none
    | names l =>
      have := Display.list (printable := printable) (l := l.map .str) (ts := l.map (reprStr printable))
        (by
          rw [List.forall₂_map_left_iff]
          exact forall₂_self _ (fun s => .str (reprStr_text printable s)) l)
      simpa [Found.text, foundVal, reprList, joinText_intercalate] using this
    | defs d =>
      exact display_dict printable
        (val := fun p : Dict Str (Dict Str SymEntry) =>
          .dict (p.map (·.1)) (p.map fun q => kindsVal addr q.2))
        (fun p => display_dict printable (val := kindsVal addr) (display_kinds printable addr) p) d
  simp only [SymMsg.text, List.cons.injEq, and_true]
  exact ⟨fun g => display_inj h t g, fun g => g ▸ h⟩

/-- C197: the lines printed about an error are the fault, then for a multiply-defined symbol its
previous definitions, then the definition, and for a multiply-defined symbol its operation, the
definitions being written as Python writes dicts. -/
theorem C197_error (printable : Char → Bool) (addr : CodeCard → Nat) (d : Diag) (lines : List Str) :
    SymMsg.text printable addr (.diag d) = lines ↔
      ∃ sentence now before, Sentence d.label d.err sentence ∧
        Display printable (defVal addr d.file d.line d.lognum d.tagtype d.card) now ∧
        Display printable (kindsVal addr d.prev) before ∧
        lines = [py "*** ERROR: " ++ sentence] ++
          (if d.err = .multiple then [py "Previous definitions: " ++ before] else []) ++
          [py "Current definition: " ++ now] ++
          (if d.err = .multiple then [py "command: " ++ d.command.getD (py "None")] else []) := by
  have h1 := display_def printable addr d.file d.line d.lognum d.tagtype d.card
  have h2 : Display printable (kindsVal addr d.prev)
      (reprDict printable (reprEntry printable addr) d.prev) := display_kinds printable addr d.prev
  have e : SymMsg.text printable addr (.diag d) =
      [py "*** ERROR: Symbol " ++ d.label ++ d.err.says] ++
          (if d.err = .multiple then [py "Previous definitions: " ++
            reprDict printable (reprEntry printable addr) d.prev] else []) ++
          [py "Current definition: " ++ reprDef printable addr d.file d.line d.lognum d.tagtype d.card] ++
          (if d.err = .multiple then [py "command: " ++ d.command.getD (py "None")] else []) := by
    simp only [SymMsg.text, Diag.text]
    cases d.err <;> rfl
  rw [e]
  constructor
  · intro h
    refine ⟨py "Symbol " ++ d.label ++ d.err.says, _, _, ?_, h1, h2, ?_⟩
    · cases d.err <;> constructor
    · rw [← h]
      simp
  · rintro ⟨sentence, now, before, g, g1, g2, rfl⟩
    rw [display_inj h1 _ g1, display_inj h2 _ g2]
    generalize d.err = err at g
    cases g <;> simp [SymErr.says]

/-- C197: a string with a single quote, a line feed, a tab, DEL, a character that counts as printable
and one that does not, and a list of two names, as Python writes them. -/
example : reprStr (fun c => c == 'é') (py "it's" ++ ['\n', '\t', Char.ofNat 127, 'é', 'ü', '\\', 'Ω']) =
      py "\"it's\\n\\t\\x7fé\\xfc\\\\\\u03a9\"" ∧
    Found.text (fun _ => true) (fun _ => 0) (.names [py "ABC", py "D'\"E"]) =
      py "['ABC', 'D\\'\"E']" := by
  refine ⟨?_, ?_⟩ <;> decide +kernel

/-- C197: a definition found. -/
example : SymMsg.text (fun _ => true) (fun _ => 48879) (.found (.defs [(py "SEG", [(py "None",
      [(py "simple", ⟨some (py "a.argus"), 3, none, py " ",
        ⟨none, 0, none, none, none, none, none, none, none, none, none, []⟩⟩)])])])) =
    [py "{'SEG': {'None': {'simple': {'file': 'a.argus', 'line': 3, 'lognum': None, " ++
      py "'tagtype': ' ', 'card': <h800.arguscard.Card object at 0xbeef>}}}}"] := by
  decide +kernel

end H800
