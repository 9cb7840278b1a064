import Verif.Props.CheckText
import Verif.Props.Twice

/-!
The lines that check-instructions and parse report, and the numbers that parse reports, can be read
off the text they print (C160, C161).
-/

namespace H800

open Spec

/-! ### Messages about lines and files -/

/-- A card whose place can be told from its line in the output. -/
def TellCard (c : CodeCard) : Prop :=
  ∃ f n, c.file = some f ∧ ' ' ∉ f ∧ '\n' ∉ f ∧ c.line = ((n : Nat) : Int) ∧ '\n' ∉ c.text

/-- A message about a line or a file. -/
def TellMsg : VMsg CheckMsg → Prop
  | .reading f => ' ' ∉ f ∧ '\n' ∉ f
  | .meta_ f _ => ' ' ∉ f ∧ '\n' ∉ f
  | .starred c => TellCard c
  | .msg (.card c) => TellCard c
  | .msg (.invalid c) => TellCard c ∧ '\n' ∉ c.instruction.getD (py "None")
  | _ => False

/-- The kind of a message, and the file, line and text that it names. -/
def viewMsg : VMsg CheckMsg → Nat × Option Str × Int × Str
  | .reading f => (0, some f, 0, [])
  | .meta_ f n => (1, some f, n, [])
  | .starred c => (2, c.file, c.line, c.text)
  | .msg (.card c) => (3, c.file, c.line, c.text)
  | .msg (.invalid c) => (4, c.file, c.line, c.text)
  | _ => (6, none, 0, [])

/-- The kind of a line, by what is after its first blank. -/
def lineKind (b : Str) : Nat :=
  if ' ' ∉ b then 0
  else
    if b.takeWhile (· ≠ ' ') = py "meta-comment," then 1
    else if b.takeWhile (· ≠ ' ') = py "card" then 2
    else if b.takeWhile (· ≠ ' ') = py "ERROR:" then 4
    else if b.takeWhile (· ≠ ' ') = py "error" ∨ b.takeWhile (· ≠ ' ') = py "errors" then 5
    else 3

theorem lineKind_word {w T : Str} (h : ' ' ∉ w) : lineKind (w ++ ' ' :: T) =
    if w = py "meta-comment," then 1 else if w = py "card" then 2 else if w = py "ERROR:" then 4
    else if w = py "error" ∨ w = py "errors" then 5 else 3 := by
  have h1 : (w ++ ' ' :: T).takeWhile (· ≠ ' ') = w := by
    rw [List.takeWhile_append_of_pos]
    · simp
    · intro c hc
      simp only [decide_eq_true_eq]
      rintro rfl
      exact h hc
  unfold lineKind
  rw [if_neg (by simp), h1]

theorem lineKind_numeral (n : Nat) (T : Str) : lineKind (numeral 10 n ++ ' ' :: T) = 3 := by
  rw [lineKind_word (numeral_blank_free n).1]
  have h : ∀ w : Str, (∃ c ∈ w, ¬ ('0' ≤ c ∧ c ≤ '9')) → numeral 10 n ≠ w := by
    rintro w ⟨c, hc, hd⟩ rfl
    exact hd ((numeral_decimal n).2.1 c hc)
  rw [if_neg (h _ ⟨'m', by decide, by decide⟩), if_neg (h _ ⟨'c', by decide, by decide⟩),
    if_neg (h _ ⟨'E', by decide, by decide⟩), if_neg]
  rintro (h' | h')
  · exact h _ ⟨'e', by decide, by decide⟩ h'
  · exact h _ ⟨'e', by decide, by decide⟩ h'

/-- The lines of a message. -/
abbrev msgLines (m : VMsg CheckMsg) : List Str := VMsg.text CheckMsg.text m

theorem cardText_eq {c : CodeCard} {f : Str} {n : Nat} (hf : c.file = some f)
    (hn : c.line = (n : Int)) (ht : '\n' ∉ c.text) :
    cardText c = f ++ ' ' :: (numeral 10 n ++ ' ' :: c.text) := by
  unfold cardText
  rw [hf, hn, pyStr_nat, remove_none ht]
  simp

theorem invalid_eq {c : CodeCard} {f : Str} {n : Nat} (hf : c.file = some f)
    (hn : c.line = (n : Int)) :
    py "File " ++ c.file.getD (py "None") ++ py ", line " ++ pyStr c.line ++ py ": " ++ c.text =
      py "File " ++ ((f ++ [',']) ++ ' ' :: (py "line " ++ ((numeral 10 n ++ [':']) ++
        ' ' :: c.text))) := by
  rw [hf, hn, pyStr_nat]
  simp

theorem tell_cases {m : VMsg CheckMsg} (h : TellMsg m) :
    (∃ f, m = .reading f ∧ ' ' ∉ f ∧ '\n' ∉ f) ∨ (∃ f n, m = .meta_ f n ∧ ' ' ∉ f ∧ '\n' ∉ f) ∨
    (∃ c, m = .starred c ∧ TellCard c) ∨ (∃ c, m = .msg (.card c) ∧ TellCard c) ∨
    ∃ c, m = .msg (.invalid c) ∧ TellCard c := by
  match m, h with
  | .reading f, h => exact .inl ⟨f, rfl, h⟩
  | .meta_ f n, h => exact .inr (.inl ⟨f, n, rfl, h⟩)
  | .starred c, h => exact .inr (.inr (.inl ⟨c, rfl, h⟩))
  | .msg (.card c), h => exact .inr (.inr (.inr (.inl ⟨c, rfl, h⟩)))
  | .msg (.invalid c), h => exact .inr (.inr (.inr (.inr ⟨c, rfl, h.1⟩)))

/-- The first line of a message, by its kind. -/
theorem first_kind {m : VMsg CheckMsg} (h : TellMsg m) :
    ∃ a b ls, ' ' ∉ a ∧ msgLines m = (a ++ ' ' :: b) :: ls ∧ lineKind b = (viewMsg m).1 ∧
      (viewMsg m).1 ≤ 4 := by
  match m, h with
  | .reading f, h =>
    refine ⟨py "Reading", f ++ py "...", [], by decide, rfl, ?_, by simp [viewMsg]⟩
    unfold lineKind
    rw [if_pos]
    · rfl
    · intro hc
      rcases List.mem_append.1 hc with hc | hc
      · exact h.1 hc
      · revert hc; decide
  | .meta_ f n, h =>
    refine ⟨py "Skipping", py "meta-comment," ++ ' ' :: (py "file " ++ f ++ py ", line " ++ pyStr n),
      [], by decide, ?_, ?_, by simp [viewMsg]⟩
    · simp [msgLines, VMsg.text]
    · rw [lineKind_word (by decide), if_pos rfl]; rfl
  | .starred c, h =>
    refine ⟨py "Skipping", py "card" ++ ' ' :: py "with * in column 8:", [cardText c], by decide,
      rfl, ?_, by simp [viewMsg]⟩
    rw [lineKind_word (by decide)]; rfl
  | .msg (.card c), h =>
    obtain ⟨f, n, hf, hb, -, hn, ht⟩ := h
    refine ⟨f, numeral 10 n ++ ' ' :: c.text, [], hb, ?_, lineKind_numeral n _, by simp [viewMsg]⟩
    show [cardText c] = _
    rw [cardText_eq hf hn ht]
  | .msg (.invalid c), h =>
    refine ⟨py "***", py "ERROR:" ++ ' ' :: (py "Invalid instruction \"" ++
      c.instruction.getD (py "None") ++ py "\":"), [py "File " ++ c.file.getD (py "None") ++
      py ", line " ++ pyStr c.line ++ py ": " ++ c.text], by decide, ?_, ?_, by simp [viewMsg]⟩
    · simp [msgLines, VMsg.text, CheckMsg.text]
    · rw [lineKind_word (by decide)]; rfl

theorem msgLines_newline {m : VMsg CheckMsg} (h : TellMsg m) : ∀ l ∈ msgLines m, '\n' ∉ l := by
  have app : ∀ {a b : Str}, '\n' ∉ a → '\n' ∉ b → '\n' ∉ a ++ b :=
    fun ha hb hc => (List.mem_append.1 hc).elim ha hb
  have card : ∀ {c : CodeCard}, TellCard c → '\n' ∉ cardText c := by
    rintro c ⟨f, n, hf, -, hb, hn, ht⟩
    rw [cardText_eq hf hn ht]
    refine app hb ?_
    rw [List.mem_cons, not_or]
    refine ⟨by decide, app (numeral_newline n) ?_⟩
    rw [List.mem_cons, not_or]
    exact ⟨by decide, ht⟩
  match m, h with
  | .reading f, h =>
    intro l hl
    rw [List.mem_singleton.1 hl]
    exact app (app (by decide) h.2) (by decide)
  | .meta_ f n, h =>
    intro l hl
    rw [List.mem_singleton.1 hl]
    exact app (app (app (by decide) h.2) (by decide)) (pyStr_newline _)
  | .starred c, h =>
    intro l hl
    rcases List.mem_cons.1 hl with rfl | hl
    · decide
    · rw [List.mem_singleton.1 hl]; exact card h
  | .msg (.card c), h =>
    intro l hl
    rw [List.mem_singleton.1 hl]; exact card h
  | .msg (.invalid c), h =>
    obtain ⟨⟨f, n, hf, -, hb, hn, ht⟩, hi⟩ := h
    intro l hl
    rcases List.mem_cons.1 hl with rfl | hl
    · exact app (app (by decide) hi) (by decide)
    · rw [List.mem_singleton.1 hl, hf]
      exact app (app (app (app (app (by decide) hb) (by decide)) (pyStr_newline _)) (by decide)) ht

theorem cardText_inj {c c' : CodeCard} (h : TellCard c) (h' : TellCard c')
    (e : cardText c = cardText c') : c.file = c'.file ∧ c.line = c'.line ∧ c.text = c'.text := by
  obtain ⟨f, n, hf, hb, -, hn, ht⟩ := h
  obtain ⟨f', n', hf', hb', -, hn', ht'⟩ := h'
  rw [cardText_eq hf hn ht, cardText_eq hf' hn' ht'] at e
  obtain ⟨rfl, e0⟩ := until_blank hb hb' e
  obtain ⟨e1, e2⟩ := until_blank (numeral_blank_free _).1 (numeral_blank_free _).1 e0
  rw [hf, hf', hn, hn', numeral_inj e1]
  exact ⟨rfl, rfl, e2⟩

/-- The lines of a message tell what it says. -/
theorem msgLines_inj {m m' : VMsg CheckMsg} {R R' : List Str} (h : TellMsg m) (h' : TellMsg m')
    (e : msgLines m ++ R = msgLines m' ++ R') : viewMsg m = viewMsg m' ∧ R = R' := by
  have hk : (viewMsg m).1 = (viewMsg m').1 := by
    obtain ⟨a, b, ls, ha, hl, hk, -⟩ := first_kind h
    obtain ⟨a', b', ls', ha', hl', hk', -⟩ := first_kind h'
    rw [hl, hl', List.cons_append, List.cons_append, List.cons.injEq] at e
    rw [← hk, ← hk', (until_blank ha ha' e.1).2]
  have comma : ∀ {f f' T T' : Str}, ' ' ∉ f → ' ' ∉ f' →
      (f ++ [',']) ++ ' ' :: T = (f' ++ [',']) ++ ' ' :: T' → f = f' ∧ T = T' := by
    intro f f' T T' hf hf' he
    obtain ⟨e1, e2⟩ := until_blank (by simp [hf]) (by simp [hf']) he
    exact ⟨List.append_cancel_right e1, e2⟩
  rcases tell_cases h with ⟨f, rfl, h⟩ | ⟨f, n, rfl, h⟩ | ⟨c, rfl, h⟩ | ⟨c, rfl, h⟩ | ⟨c, rfl, h⟩ <;>
    rcases tell_cases h' with
      ⟨f', rfl, h'⟩ | ⟨f', n', rfl, h'⟩ | ⟨c', rfl, h'⟩ | ⟨c', rfl, h'⟩ | ⟨c', rfl, h'⟩ <;>
    try (exfalso; simp [viewMsg] at hk; done)
  · have e0 : (py "Reading " ++ f ++ py "...") :: R = (py "Reading " ++ f' ++ py "...") :: R' := e
    obtain ⟨e1, e2⟩ := List.cons.inj e0
    exact ⟨by rw [List.append_cancel_left (List.append_cancel_right e1)], e2⟩
  · have e0 : (py "Skipping meta-comment, file " ++ f ++ py ", line " ++ pyStr n) :: R =
        (py "Skipping meta-comment, file " ++ f' ++ py ", line " ++ pyStr n') :: R' := e
    obtain ⟨e1, eR⟩ := List.cons.inj e0
    refine ⟨?_, eR⟩
    rw [List.append_assoc, List.append_assoc, List.append_assoc, List.append_assoc] at e1
    have e2 := List.append_cancel_left e1
    have sh : ∀ (f : Str) (n : Nat), f ++ (py ", line " ++ pyStr (n : Int)) =
        (f ++ [',']) ++ ' ' :: (py "line " ++ pyStr (n : Int)) := by intro f n; simp
    rw [sh, sh] at e2
    obtain ⟨rfl, e3⟩ := comma h.1 h'.1 e2
    rw [pyStr_nat_inj (List.append_cancel_left e3)]
  · have e0 : cardText c :: R = cardText c' :: R' := (List.cons.inj e).2
    obtain ⟨e1, e2⟩ := List.cons.inj e0
    obtain ⟨e3, e4, e5⟩ := cardText_inj h h' e1
    exact ⟨by simp only [viewMsg, e3, e4, e5], e2⟩
  · have e0 : cardText c :: R = cardText c' :: R' := e
    obtain ⟨e1, e2⟩ := List.cons.inj e0
    obtain ⟨e3, e4, e5⟩ := cardText_inj h h' e1
    exact ⟨by simp only [viewMsg, e3, e4, e5], e2⟩
  · obtain ⟨e1, eR⟩ := List.cons.inj (List.cons.inj e).2
    refine ⟨?_, eR⟩
    obtain ⟨f, n, hf, hb, -, hn, ht⟩ := h.1
    obtain ⟨f', n', hf', hb', -, hn', ht'⟩ := h'.1
    rw [invalid_eq hf hn, invalid_eq hf' hn'] at e1
    obtain ⟨rfl, e2⟩ := comma hb hb' (List.append_cancel_left e1)
    obtain ⟨e3, e4⟩ := until_blank (by simp [(numeral_blank_free n).1])
      (by simp [(numeral_blank_free n').1]) (List.append_cancel_left e2)
    simp only [viewMsg, hf, hf', hn, hn', numeral_inj (List.append_cancel_right e3), e4]

/-- The first line of a report. -/
def Reports (R : List Str) : Prop := ∃ l ls, R = l :: ls ∧ (l = [] ∨ ∃ n, l = errorsLine n)

theorem not_reports {m : VMsg CheckMsg} {R R' : List Str} (h : TellMsg m) (hR : Reports R) :
    R ≠ msgLines m ++ R' := by
  obtain ⟨a, b, ls, ha, hl, hk, h4⟩ := first_kind h
  obtain ⟨l, ls', rfl, hr⟩ := hR
  rw [hl, List.cons_append]
  intro e
  rw [List.cons.injEq] at e
  rcases hr with rfl | ⟨n, rfl⟩
  · have := e.1
    cases a <;> cases this
  · obtain ⟨n', w, T, hw, he, hkw⟩ : ∃ n' w T, ' ' ∉ w ∧
        errorsLine n = numeral 10 n' ++ ' ' :: (w ++ ' ' :: T) ∧ (w = py "error" ∨ w = py "errors") := by
      unfold errorsLine
      split
      · exact ⟨1, py "error", py "encountered.", by decide, by decide, .inl rfl⟩
      · refine ⟨n, py "errors", py "encountered.", by decide, ?_, .inr rfl⟩
        rw [pyStr_nat]
        rfl
    rw [he] at e
    obtain ⟨-, e2⟩ := until_blank (numeral_blank_free _).1 ha e.1
    have : lineKind b = 5 := by
      rw [← e2, lineKind_word hw]
      rcases hkw with rfl | rfl <;> decide
    omega

/-- The messages before the report can be read off the lines. -/
theorem msgs_inj {ms ms' : List (VMsg CheckMsg)} {R R' : List Str} (h : ∀ m ∈ ms, TellMsg m)
    (h' : ∀ m ∈ ms', TellMsg m) (hR : Reports R) (hR' : Reports R')
    (e : ms.flatMap msgLines ++ R = ms'.flatMap msgLines ++ R') :
    ms.map viewMsg = ms'.map viewMsg ∧ R = R' := by
  induction ms generalizing ms' with
  | nil =>
    cases ms' with
    | nil => exact ⟨rfl, by simpa using e⟩
    | cons m' ms' =>
      rw [List.flatMap_cons, List.append_assoc, List.flatMap_nil, List.nil_append] at e
      exact absurd e (not_reports (h' m' (by simp)) hR)
  | cons m ms ih =>
    cases ms' with
    | nil =>
      rw [List.flatMap_cons, List.append_assoc, List.flatMap_nil, List.nil_append] at e
      exact absurd e.symm (not_reports (h m (by simp)) hR')
    | cons m' ms' =>
      rw [List.flatMap_cons, List.append_assoc, List.flatMap_cons, List.append_assoc] at e
      obtain ⟨e1, e2⟩ := msgLines_inj (h m (by simp)) (h' m' (by simp)) e
      obtain ⟨e3, e4⟩ := ih (fun x hx => h x (by simp [hx])) (fun x hx => h' x (by simp [hx])) e2
      exact ⟨by rw [List.map_cons, List.map_cons, e1, e3], e4⟩

/-! ### The messages of a run -/

theorem sources_tell {fs : FileSystem} {files : List Str} {src : List Src}
    (h : Sources fs files src) (hn : ∀ f ∈ files, ' ' ∉ f ∧ '\n' ∉ f) :
    ∀ s ∈ src, TellCard (srcCard s) ∧ '\n' ∉ (srcCard s).instruction.getD (py "None") := by
  obtain ⟨outs, h2, rfl⟩ := h
  induction h2 with
  | nil => intro s hs; cases hs
  | @cons f out files outs he _ ih =>
    intro s hs
    rw [List.flatten_cons, List.mem_append] at hs
    rcases hs with hs | hs
    · obtain ⟨text, -, hex⟩ := he
      have hend := expand_endNewline hex (fun l h => readlines_line h) s hs
      have hname : ' ' ∉ s.file ∧ '\n' ∉ s.file := by
        rcases expand_names hex s hs with h | h
        · rw [h]; exact hn f (by simp)
        · exact ⟨fun hc => absurd (h _ hc) (by decide), fun hc => absurd (h _ hc) (by decide)⟩
      refine ⟨⟨s.file, s.num, rfl, hname.1, hname.2, rfl, ?_⟩, ?_⟩
      · show '\n' ∉ remove s.text '\n'
        simp [remove]
      · have h1 : (srcCard s).instruction =
            (srcCard s).operation.map fun o => strip (splitFirst o ',') := rfl
        rw [h1]
        cases ho : (srcCard s).operation with
        | none => decide
        | some o =>
          have hop := piece_newline hend ((op_iff s o).1 ho).2
          intro hc
          exact hop ((List.takeWhile_sublist _).subset (strip_mem hc))
    · exact ih (fun f hf => hn f (by simp [hf])) s hs

/-- The file that a note is about. -/
def noteFile : Note → Str
  | .reading f => f
  | .comment f _ => f

theorem tell_names {fs : Str → Option Str} {file : Str} {i : Nat} {ls : List Str} {d : Bool}
    {m : List Note} (h : Tell fs file i ls d m) :
    ∀ n ∈ m, noteFile n = file ∨ ∀ c ∈ noteFile n, isSpace c = false := by
  induction h with
  | nil => intro n hn; cases hn
  | comment _ ih =>
    intro n hn
    rcases List.mem_cons.1 hn with rfl | hn
    · exact .inl rfl
    · exact ih n hn
  | incl hw _ _ _ ih1 ih2 =>
    intro n hn
    rcases List.mem_append.1 hn with hn | hn
    · rcases List.mem_cons.1 hn with rfl | hn
      · exact .inr hw.2.1
      · rcases ih1 n hn with h | h
        · right; rw [h]; exact hw.2.1
        · exact .inr h
    · exact ih2 n hn
  | inside hw _ _ ih =>
    intro n hn
    rcases List.mem_cons.1 hn with rfl | hn
    · exact .inr hw.2.1
    · rcases ih n hn with h | h
      · right; rw [h]; exact hw.2.1
      · exact .inr h
  | missing => intro n hn; cases hn
  | nameless => intro n hn; cases hn
  | plain _ _ _ ih => exact ih

theorem notes_tell {fs : FileSystem} {files : List Str} {notes : List (List Note)}
    (h : List.Forall₂ (fun f m => Tells fs f true m) files notes)
    (hn : ∀ f ∈ files, ' ' ∉ f ∧ '\n' ∉ f) :
    ∀ m ∈ notes, ∀ n ∈ m, ' ' ∉ noteFile n ∧ '\n' ∉ noteFile n := by
  induction h with
  | nil => intro m hm; cases hm
  | @cons f m files notes he _ ih =>
    intro m' hm' n hnm
    rcases List.mem_cons.1 hm' with rfl | hm'
    · obtain ⟨text, m0, -, ht, rfl⟩ := he
      have hf := hn f (by simp)
      rcases List.mem_cons.1 hnm with rfl | hnm
      · exact hf
      · rcases tell_names ht n hnm with h | h
        · rw [h]; exact hf
        · exact ⟨fun hc => absurd (h _ hc) (by decide), fun hc => absurd (h _ hc) (by decide)⟩
    · exact ih (fun f hf => hn f (by simp [hf])) m' hm' n hnm

/-- What is seen of a message, as what the option adds. -/
def extraView : Nat × Option Str × Int × Str → Option Extra
  | (0, some f, _, _) => some (.note (.reading f))
  | (1, some f, n, _) => some (.note (.comment f n.toNat))
  | (2, f, n, t) => some (.starred f n t)
  | _ => none

theorem extraView_msg {m : VMsg CheckMsg} (h : TellMsg m) : extra m = extraView (viewMsg m) := by
  rcases tell_cases h with ⟨f, rfl, h⟩ | ⟨f, n, rfl, h⟩ | ⟨c, rfl, h⟩ | ⟨c, rfl, h⟩ | ⟨c, rfl, h⟩ <;>
    simp [extra, viewMsg, extraView]

/-- What is seen of the messages of one kind. -/
def ofKind (k : Nat) (v : Nat × Option Str × Int × Str) : Option (Option Str × Int × Str) :=
  if v.1 = k then some v.2 else none

theorem ofKind_usual {k : Nat} (hk : k = 3 ∨ k = 4) {ms : List (VMsg CheckMsg)}
    (h : ∀ m ∈ ms, TellMsg m) :
    (ms.map viewMsg).filterMap (ofKind k) =
      (ms.filterMap usual).filterMap fun m => ofKind k (viewMsg (.msg m)) := by
  induction ms with
  | nil => rfl
  | cons m ms ih =>
    have ih := ih fun x hx => h x (by simp [hx])
    rw [List.map_cons, List.filterMap_cons, ih]
    rcases tell_cases (h m (by simp)) with
      ⟨f, rfl, -⟩ | ⟨f, n, rfl, -⟩ | ⟨c, rfl, -⟩ | ⟨c, rfl, -⟩ | ⟨c, rfl, -⟩ <;>
    rcases hk with rfl | rfl <;> rfl

open scoped Classical

/-- The lines in error, and the lines with an instruction if they are printed. -/
theorem ofKind_src (opts : CheckOpts) (src : List Src) :
    ((src.map srcCard).flatMap (cardMsgs opts)).filterMap (fun m => ofKind 4 (viewMsg (.msg m))) =
        (src.filter fun s => decide (BadInstr s)).map
          (fun s => (some s.file, (s.num : Int), s.text.filter (· ≠ '\n'))) ∧
      ((src.map srcCard).flatMap (cardMsgs opts)).filterMap (fun m => ofKind 3 (viewMsg (.msg m))) =
        if opts.printOpcodes then (src.filter fun s => decide (∃ i, HasInstr s i)).map
          (fun s => (some s.file, (s.num : Int), s.text.filter (· ≠ '\n'))) else [] := by
  induction src with
  | nil => simp
  | cons s src ih =>
    have h1 : (instOf (srcCard s)).isSome = decide (∃ i, HasInstr s i) := by
      rw [Bool.eq_iff_iff, Option.isSome_iff_exists, decide_eq_true_iff]
      simp only [instOf_iff]
    have h2 : badInst (srcCard s) = decide (BadInstr s) := by
      rw [Bool.eq_iff_iff, badInst_iff, decide_eq_true_iff]
    rw [List.map_cons, List.flatMap_cons, List.filterMap_append, List.filterMap_append, ih.1, ih.2]
    unfold cardMsgs
    rw [h1, h2, List.filter_cons, List.filter_cons]
    constructor
    · cases opts.printOpcodes <;> cases decide (∃ i, HasInstr s i) <;> cases decide (BadInstr s) <;>
        simp [ofKind, viewMsg, srcCard, remove]
    · cases opts.printOpcodes <;> cases decide (∃ i, HasInstr s i) <;> cases decide (BadInstr s) <;>
        simp [ofKind, viewMsg, srcCard, remove]

theorem seen_inj {l l' : List Src}
    (e : l.map (fun s => (some s.file, (s.num : Int), s.text.filter (· ≠ '\n'))) =
      l'.map (fun s => (some s.file, (s.num : Int), s.text.filter (· ≠ '\n')))) :
    l.map seen = l'.map seen := by
  have inj : Function.Injective
      (fun p : Str × Nat × Str => ((some p.1 : Option Str), ((p.2.1 : Nat) : Int), p.2.2)) := by
    rintro ⟨a, b, c⟩ ⟨a', b', c'⟩ h
    simp only [Prod.mk.injEq, Option.some.injEq, Int.natCast_inj] at h
    obtain ⟨rfl, rfl, rfl⟩ := h
    rfl
  apply List.map_injective_iff.2 inj
  rw [List.map_map, List.map_map]
  exact e

/-- Two lists of messages before reports, read off the same text. -/
theorem heads_read {src src' : List Src} {opts opts' : CheckOpts} {ms ms' : List (VMsg CheckMsg)}
    (hu : ms.filterMap usual = (src.map srcCard).flatMap (cardMsgs opts))
    (hu' : ms'.filterMap usual = (src'.map srcCard).flatMap (cardMsgs opts'))
    (h : ∀ m ∈ ms, TellMsg m) (h' : ∀ m ∈ ms', TellMsg m) {R R' : List Str}
    (hR : Reports R) (hR' : Reports R') (hn : ∀ l ∈ R, '\n' ∉ l) (hn' : ∀ l ∈ R', '\n' ∉ l)
    (e : printed (ms.flatMap msgLines ++ R) = printed (ms'.flatMap msgLines ++ R')) :
    (src.filter fun s => decide (BadInstr s)).map seen =
        (src'.filter fun s => decide (BadInstr s)).map seen ∧
      (if opts.printOpcodes then (src.filter fun s => decide (∃ i, HasInstr s i)).map seen else []) =
        (if opts'.printOpcodes then (src'.filter fun s => decide (∃ i, HasInstr s i)).map seen
          else []) ∧
      ms.filterMap extra = ms'.filterMap extra ∧ R = R' := by
  have nl : ∀ {ms : List (VMsg CheckMsg)} {R : List Str}, (∀ m ∈ ms, TellMsg m) →
      (∀ l ∈ R, '\n' ∉ l) → ∀ l ∈ ms.flatMap msgLines ++ R, '\n' ∉ l := by
    intro ms R h hn l hl
    rcases List.mem_append.1 hl with hl | hl
    · obtain ⟨m, hm, hl⟩ := List.mem_flatMap.1 hl
      exact msgLines_newline (h m hm) l hl
    · exact hn l hl
  obtain ⟨ev, eR⟩ := msgs_inj h h' hR hR' (text_lines_inj (nl h hn) (nl h' hn') e)
  have key : ∀ {k : Nat}, k = 3 ∨ k = 4 →
      ((src.map srcCard).flatMap (cardMsgs opts)).filterMap (fun m => ofKind k (viewMsg (.msg m))) =
      ((src'.map srcCard).flatMap (cardMsgs opts')).filterMap
        (fun m => ofKind k (viewMsg (.msg m))) := by
    intro k hk
    rw [← hu, ← hu', ← ofKind_usual hk h, ← ofKind_usual hk h', ev]
  refine ⟨?_, ?_, ?_, eR⟩
  · have := key (.inr rfl)
    rw [(ofKind_src opts src).1, (ofKind_src opts' src').1] at this
    exact seen_inj this
  · have := key (.inl rfl)
    rw [(ofKind_src opts src).2, (ofKind_src opts' src').2] at this
    have nil : ∀ b : Bool, ∀ l : List Src,
        (if b then l.map (fun s => (some s.file, (s.num : Int), s.text.filter (· ≠ '\n'))) else []) =
        (if b then l else []).map
          (fun s => (some s.file, (s.num : Int), s.text.filter (· ≠ '\n'))) := by
      intro b l; cases b <;> simp
    have nil' : ∀ b : Bool, ∀ l : List Src, (if b then l.map seen else []) =
        (if b then l else []).map seen := by
      intro b l; cases b <;> simp
    rw [nil, nil] at this
    rw [nil', nil']
    exact seen_inj this
  · have : ∀ {ms : List (VMsg CheckMsg)}, (∀ m ∈ ms, TellMsg m) →
        ms.filterMap extra = (ms.map viewMsg).filterMap extraView := by
      intro ms h
      rw [List.filterMap_map]
      exact List.filterMap_congr fun m hm => extraView_msg (h m hm)
    rw [this h, this h', ev]

theorem cardMsgs_tell {src : List Src} (h : ∀ s ∈ src, TellCard (srcCard s) ∧
      '\n' ∉ (srcCard s).instruction.getD (py "None")) (opts : CheckOpts) :
    ∀ x ∈ (src.map srcCard).flatMap (cardMsgs opts), TellMsg (.msg x) := by
  intro x hx
  obtain ⟨c, hc, hx⟩ := List.mem_flatMap.1 hx
  obtain ⟨s, hs, rfl⟩ := List.mem_map.1 hc
  unfold cardMsgs at hx
  rcases List.mem_append.1 hx with hx | hx
  · split at hx
    · rw [List.mem_singleton.1 hx]; exact (h s hs).1
    · cases hx
  · split at hx
    · rw [List.mem_singleton.1 hx]; exact h s hs
    · cases hx

/-- All messages can be told if those with and without `--verbose` can. -/
theorem tell_all {ms : List (VMsg CheckMsg)} (hu : ∀ x ∈ ms.filterMap usual, TellMsg (.msg x))
    (he : ∀ x ∈ ms.filterMap extra, (∃ n, x = .note n ∧ ' ' ∉ noteFile n ∧ '\n' ∉ noteFile n) ∨
      ∃ s, x = skipped s ∧ TellCard (srcCard s)) : ∀ m ∈ ms, TellMsg m := by
  intro m hm
  have mem : ∀ {x}, extra m = some x → x ∈ ms.filterMap extra :=
    fun h => List.mem_filterMap.2 ⟨m, hm, h⟩
  cases m with
  | reading f =>
    rcases he _ (mem rfl) with ⟨n, hn, h⟩ | ⟨s, hs, -⟩
    · cases hn; exact h
    · cases hs
  | meta_ f k =>
    rcases he _ (mem rfl) with ⟨n, hn, h⟩ | ⟨s, hs, -⟩
    · cases hn; exact h
    · cases hs
  | starred c =>
    rcases he _ (mem rfl) with ⟨n, hn, h⟩ | ⟨s, hs, f, n, h1, h2, h3, h4, h5⟩
    · cases hn
    · simp only [skipped, Extra.starred.injEq] at hs
      obtain ⟨e1, e2, e3⟩ := hs
      refine ⟨s.file, s.num, e1, ?_, ?_, e2, ?_⟩
      · cases h1; exact h2
      · cases h1; exact h3
      · rw [e3]; simp
  | wrote f =>
    rcases he _ (mem rfl) with ⟨n, hn, h⟩ | ⟨s, hs, -⟩
    · cases hn
    · cases hs
  | msg x => exact hu x (List.mem_filterMap.2 ⟨_, hm, rfl⟩)

/-- What `--verbose` adds can be told. -/
theorem extras_tell {fs : FileSystem} {files : List Str} (hn : ∀ f ∈ files, ' ' ∉ f ∧ '\n' ∉ f)
    {notes : List (List Note)} {srcs : List (List Src)}
    (h1 : List.Forall₂ (fun f m => Tells fs f true m) files notes)
    (h2 : List.Forall₂ (Expands fs) files srcs) (p : Src → Bool) :
    ∀ x ∈ (List.zipWith (fun m src => m.map Extra.note ++ (src.filter p).map skipped)
        notes srcs).flatten,
      (∃ n, x = .note n ∧ ' ' ∉ noteFile n ∧ '\n' ∉ noteFile n) ∨
      ∃ s, x = skipped s ∧ TellCard (srcCard s) := by
  intro x hx
  have hs := sources_tell ⟨srcs, h2, rfl⟩ hn
  have hm := notes_tell h1 hn
  obtain ⟨l, hl, hx⟩ := List.mem_flatten.1 hx
  obtain ⟨i, hi, rfl⟩ := List.mem_iff_getElem.1 hl
  rw [List.getElem_zipWith] at hx
  rcases List.mem_append.1 hx with hx | hx
  · obtain ⟨n, hn', rfl⟩ := List.mem_map.1 hx
    exact .inl ⟨n, rfl, hm _ (List.getElem_mem _) n hn'⟩
  · obtain ⟨s, hs', rfl⟩ := List.mem_map.1 hx
    exact .inr ⟨s, rfl, (hs s (List.mem_flatten.2 ⟨_, List.getElem_mem _,
      (List.mem_filter.1 hs').1⟩)).1⟩

/-! ### The reports -/

theorem reportLines_split (opts : CheckOpts) (st : CheckState) :
    reportLines opts st = (if opts.count then [] :: (py "Source lines: " ++ pyStr st.linecount) :: [] ::
      py "Instruction Frequencies:" :: totalText st.instrcount ::
      (shownFreqs opts st).map (fun p => freqText p.1 p.2 st.instrcount) else []) ++
      ((if opts.unused then [] :: py "Unused Instructions:" :: unusedNames st else []) ++
        [errorsLine st.errcount]) := by
  cases hc : opts.count
  · unfold reportLines reportMsgs
    rw [List.flatMap_append, checkTail_lines, hc]
    rfl
  · rw [reportLines_count hc]
    rfl

theorem reportLines_reports (opts : CheckOpts) (st : CheckState) : Reports (reportLines opts st) := by
  rw [reportLines_split]
  cases opts.count <;> cases opts.unused
  · exact ⟨_, _, rfl, .inr ⟨_, rfl⟩⟩
  · exact ⟨_, _, rfl, .inl rfl⟩
  · exact ⟨_, _, rfl, .inl rfl⟩
  · exact ⟨_, _, rfl, .inl rfl⟩

theorem reportLines_plain {opts : CheckOpts} {st : CheckState}
    (hk : st.instrtab.map (·.1) = INSTRUCTIONS) : ∀ l ∈ reportLines opts st, '\n' ∉ l := by
  intro l hl
  have h := reportLines_newline (opts := { opts with count := true }) rfl hk l
  rw [reportLines_split] at h hl
  rcases List.mem_append.1 hl with hl | hl
  · cases hc : opts.count
    · rw [hc] at hl; cases hl
    · rw [hc] at hl; exact h (List.mem_append_left _ hl)
  · exact h (List.mem_append_right _ hl)

/-! ### C161 -/

/-- C161: if two runs of check-instructions print the same text, then they report the same lines in
error (their files, numbers and texts, in order), they print the same lines because of
`--print-opcodes`, which are the lines with an instruction if it is given, and they print the same
because of `--verbose`: the names of the given files need to be without blanks and newlines. -/
theorem C161_check (fs fs' : FileSystem) (fuel fuel' : Nat) (argv argv' args args' : List Str)
    (os os' : List Opt) (out out' : List (VMsg CheckMsg))
    (hm : Means CHECK_INSTRUCTIONS_OPTS argv os args)
    (hm' : Means CHECK_INSTRUCTIONS_OPTS argv' os' args')
    (hn : ∀ f ∈ args, ' ' ∉ f ∧ '\n' ∉ f) (hn' : ∀ f ∈ args', ' ' ∉ f ∧ '\n' ∉ f)
    (h : checkInstructionsCmd fs fuel argv = (out, .ok ()))
    (h' : checkInstructionsCmd fs' fuel' argv' = (out', .ok ()))
    (ht : checkStdout out = checkStdout out') :
    ∃ src src', Sources fs args src ∧ Sources fs' args' src' ∧
      (src.filter fun s => decide (BadInstr s)).map seen =
        (src'.filter fun s => decide (BadInstr s)).map seen ∧
      (if Given os (py "printOpcodes") then
          (src.filter fun s => decide (∃ i, HasInstr s i)).map seen else []) =
        (if Given os' (py "printOpcodes") then
          (src'.filter fun s => decide (∃ i, HasInstr s i)).map seen else []) ∧
      out.filterMap extra = out'.filterMap extra := by
  have run : ∀ {fs : FileSystem} {fuel : Nat} {argv args : List Str} {os : List Opt}
      {out : List (VMsg CheckMsg)}, Means CHECK_INSTRUCTIONS_OPTS argv os args →
      (∀ f ∈ args, ' ' ∉ f ∧ '\n' ∉ f) → checkInstructionsCmd fs fuel argv = (out, .ok ()) →
      ∃ src head st opts, Sources fs args src ∧
        opts.printOpcodes = decide (Given os (py "printOpcodes")) ∧
        head.filterMap usual = (src.map srcCard).flatMap (cardMsgs opts) ∧
        (∀ m ∈ head, TellMsg m) ∧ st.instrtab.map (·.1) = INSTRUCTIONS ∧
        out = head ++ (reportMsgs opts st).map .msg := by
    intro fs fuel argv args os out hm hn h
    have h1 := checkCmd_run hm h
    generalize hv : decide (Given os (py "verbose")) = v at h1
    generalize ho : (⟨_, _, _, _, _, _⟩ : CheckOpts) = opts at h1
    obtain ⟨st, head, hf, ha, rfl⟩ := checkV_shape h1
    obtain ⟨src, hs, hst⟩ := foldFiles_ok hf
    obtain ⟨-, -, -, b4, -, -, b7⟩ := checkFold_spec opts (src.map srcCard) CheckState.init
      (by rw [init_tab, List.map_map]; exact List.map_id _)
    rw [← hst] at b4 b7
    have hu : head.filterMap usual = (src.map srcCard).flatMap (cardMsgs opts) := by
      rw [ha.1, b7]; rfl
    refine ⟨src, head, st, opts, hs, by rw [← ho], hu, ?_, b4, rfl⟩
    refine tell_all (by rw [hu]; exact cardMsgs_tell (sources_tell hs hn) opts) ?_
    cases v with
    | false =>
      rw [ha.2 rfl]
      intro x hx
      obtain ⟨m, hm, he⟩ := List.mem_filterMap.1 hx
      obtain ⟨y, -, rfl⟩ := List.mem_map.1 hm
      cases he
    | true =>
      obtain ⟨notes, srcs, h2, h3, h4⟩ := C152_check _ _ _ _ _ h1
      rw [List.filterMap_append] at h4
      intro x hx
      have hx' := List.mem_append_left
        ((((reportMsgs opts st).map VMsg.msg).filterMap extra)) hx
      rw [h4] at hx'
      exact extras_tell hn h2 h3 _ x hx'
  obtain ⟨src, head, st, opts, hs, hp, hu, hh, hk, rfl⟩ := run hm hn h
  obtain ⟨src', head', st', opts', hs', hp', hu', hh', hk', rfl⟩ := run hm' hn' h'
  rw [checkStdout_split, checkStdout_split] at ht
  unfold checkStdout at ht
  rw [← printed_append, ← printed_append] at ht
  obtain ⟨r1, r2, r3, -⟩ := heads_read hu hu' hh hh' (reportLines_reports opts st)
    (reportLines_reports opts' st') (reportLines_plain hk) (reportLines_plain hk') ht
  refine ⟨src, src', hs, hs', r1, ?_, ?_⟩
  · rw [hp, hp'] at r2
    simpa using r2
  · rw [List.filterMap_append, List.filterMap_append, r3]
    have none : ∀ l : List CheckMsg, (l.map VMsg.msg).filterMap extra = [] := by
      intro l
      rw [List.filterMap_map]
      exact List.filterMap_eq_nil_iff.2 fun _ _ => rfl
    rw [none, none]

/-- The messages of parse on the standard output. -/
def onStdout : VMsg ParseMsg → Option (VMsg CheckMsg)
  | .msg (.inl _) => none
  | .msg (.inr m) => some (.msg m)
  | .reading f => some (.reading f)
  | .meta_ f n => some (.meta_ f n)
  | .starred c => some (.starred c)
  | .wrote f => some (.wrote f)

theorem parseStdout_eq (out : List (VMsg ParseMsg)) :
    parseStdout out = checkStdout (out.filterMap onStdout) := by
  unfold parseStdout checkStdout
  congr 1
  induction out with
  | nil => rfl
  | cons m out ih =>
    rw [List.flatMap_cons, ih]
    match m with
    | .msg (.inl _) => rfl
    | .msg (.inr m) => rfl
    | .reading f => rfl
    | .meta_ f n => rfl
    | .starred c => rfl
    | .wrote f => rfl

theorem onStdout_extra (out : List (VMsg ParseMsg)) :
    (out.filterMap onStdout).filterMap extra = out.filterMap extra := by
  rw [List.filterMap_filterMap]
  apply List.filterMap_congr
  intro m _
  match m with
  | .msg (.inl _) => rfl
  | .msg (.inr m) => rfl
  | .reading f => rfl
  | .meta_ f n => rfl
  | .starred c => rfl
  | .wrote f => rfl

theorem onStdout_usual (out : List (VMsg ParseMsg)) :
    (out.filterMap onStdout).filterMap usual =
      (out.filterMap usual).filterMap (fun | .inl _ => none | .inr m => some m) := by
  rw [List.filterMap_filterMap, List.filterMap_filterMap]
  apply List.filterMap_congr
  intro m _
  match m with
  | .msg (.inl _) => rfl
  | .msg (.inr m) => rfl
  | .reading f => rfl
  | .meta_ f n => rfl
  | .starred c => rfl
  | .wrote f => rfl

theorem parseV_shape {v : Bool} {upper : Str → Str} {fs : FileSystem} {fuel : Nat} {debug : Bool}
    {args : List Str} {out : List (VMsg ParseMsg)}
    (h : parseV v upper fs fuel debug args = (out, .ok ())) :
    ∃ src pre n, Sources fs args src ∧
      out = pre ++ [.msg (.inr (.lines src.length)), .msg (.inr (.errors n))] ∧
      (pre.filterMap onStdout).filterMap usual =
        (src.map srcCard).flatMap (cardMsgs ⟨false, false, false, debug, false, false⟩) := by
  obtain ⟨syms, checks, hu, -, hr⟩ := C151_parse v upper fs fuel debug args
  rw [h] at hu hr
  simp only at hu hr
  have ha : ¬ args.length < 1 := by
    intro ha
    unfold parseV at h
    rw [if_pos ha] at h
    cases h
  have hc := hr
  unfold parseRun at hc
  rw [if_neg ha] at hc
  rcases hp : parseSymbolsRun upper fs fuel args [] 0 [] with ⟨ec, errs, r⟩
  rw [hp] at hc
  cases r with
  | error e => cases hc
  | ok u =>
    cases u
    obtain ⟨decks, hd⟩ := (parseSymbolsRun_decks hp).1
    rw [parseRun_ok ha hp hd ⟨false, false, false, debug, false, false⟩ rfl] at hr
    obtain ⟨src, hs, hfl⟩ := mapFiles_ok hd
    rw [hfl, List.length_map] at hr
    simp only [Prod.mk.injEq, ParseOut.mk.injEq, and_true] at hr
    obtain ⟨hr, -⟩ := hr
    obtain ⟨pre, l, n, rfl⟩ : ∃ pre l n,
        out = pre ++ [.msg (.inr (.lines l)), .msg (.inr (.errors n))] := by
      unfold parseV at h
      rw [if_neg ha] at h
      split at h
      · cases h
      · split at h
        · cases h
        · simp only [Prod.mk.injEq, and_true] at h
          exact ⟨_, _, _, h.symm⟩
    have h1 := onStdout_usual (pre ++ [.msg (.inr (.lines l)), .msg (.inr (.errors n))])
    rw [hu, List.filterMap_append, List.filterMap_append, List.filterMap_append,
      List.filterMap_map, List.filterMap_map] at h1
    have n1 : syms.filterMap ((fun | .inl _ => none | .inr m => some m : ParseMsg → Option CheckMsg) ∘
        Sum.inl) = [] := List.filterMap_eq_nil_iff.2 fun _ _ => rfl
    have n2 : checks.filterMap ((fun | .inl _ => none | .inr m => some m : ParseMsg → Option CheckMsg) ∘
        Sum.inr) = checks := List.filterMap_some
    rw [n1, n2, List.nil_append, ← hr] at h1
    obtain ⟨h2, h3⟩ := List.append_inj' h1 rfl
    have h4 : [CheckMsg.lines l, CheckMsg.errors n] = _ := h3
    simp only [List.cons.injEq, CheckMsg.lines.injEq, and_true] at h4
    refine ⟨src, pre, n, hs, by rw [h4.1], h2⟩

theorem parseCmd_run {upper : Str → Str} {fs : FileSystem} {fuel : Nat} {argv args : List Str}
    {os : List Opt} {out : List (VMsg ParseMsg)} (hm : Means PARSE_OPTS argv os args)
    (h : parseCmd upper fs fuel argv = (out, .ok ())) :
    parseV (decide (Given os (py "verbose"))) upper fs fuel (decide (Given os (py "debug"))) args =
      (out, .ok ()) := by
  unfold parseCmd at h
  rcases means_values C153_good.2.2.2.2.2.1 hm with ⟨-, e⟩ | ⟨-, v, e, hv⟩
  · rw [e] at h; cases h
  · rw [e] at h
    simp only at h
    rw [hv (py "verbose") (by decide), hv (py "debug") (by decide)] at h
    exact h

theorem parseStdout_split (pre : List (VMsg ParseMsg)) (l n : Nat) :
    parseStdout (pre ++ [.msg (.inr (.lines l)), .msg (.inr (.errors n))]) =
      printed ((pre.filterMap onStdout).flatMap msgLines ++
        [[], py "Source lines: " ++ pyStr l, errorsLine n]) := by
  rw [parseStdout_eq, List.filterMap_append]
  unfold checkStdout
  rw [List.flatMap_append]
  rfl

theorem parseTail_newline (l n : Nat) :
    ∀ x ∈ [[], py "Source lines: " ++ pyStr l, errorsLine n], '\n' ∉ x := by
  intro x hx
  simp only [List.mem_cons, List.not_mem_nil, or_false] at hx
  rcases hx with rfl | rfl | rfl
  · decide
  · intro h
    rcases List.mem_append.1 h with h | h
    · revert h; decide
    · exact pyStr_newline _ h
  · exact errorsLine_newline _

/-- C160: if two runs of parse print the same text on the standard output, then the files have the
same number of lines, and the same number of errors is reported. -/
theorem C160_parse (upper upper' : Str → Str) (fs fs' : FileSystem) (fuel fuel' : Nat)
    (argv argv' args args' : List Str) (os os' : List Opt) (out out' : List (VMsg ParseMsg))
    (hm : Means PARSE_OPTS argv os args) (hm' : Means PARSE_OPTS argv' os' args')
    (h : parseCmd upper fs fuel argv = (out, .ok ()))
    (h' : parseCmd upper' fs' fuel' argv' = (out', .ok ()))
    (ht : parseStdout out = parseStdout out') :
    ∃ src src' n, Sources fs args src ∧ Sources fs' args' src' ∧ src.length = src'.length ∧
      out.getLast? = some (.msg (.inr (.errors n))) ∧
      out'.getLast? = some (.msg (.inr (.errors n))) := by
  obtain ⟨src, pre, n, hs, rfl, -⟩ := parseV_shape (parseCmd_run hm h)
  obtain ⟨src', pre', n', hs', rfl, -⟩ := parseV_shape (parseCmd_run hm' h')
  rw [parseStdout_split, parseStdout_split, printed_append, printed_append] at ht
  obtain ⟨-, e⟩ := tail_lines_inj (whole_printed _) (whole_printed _)
    (parseTail_newline src.length n) (parseTail_newline src'.length n') (by rfl) ht
  rw [List.cons.injEq, List.cons.injEq, List.cons.injEq] at e
  obtain ⟨-, e1, e2, -⟩ := e
  have hn : n = n' := errors_text_inj (by
    show [errorsLine _] = [errorsLine _]
    rw [e2])
  refine ⟨src, src', n, hs, hs', pyStr_nat_inj (List.append_cancel_left e1), ?_, ?_⟩
  · simp
  · rw [hn]; simp

/-- C161: the same for parse; here it is `--debug` that prints the lines with an instruction. -/
theorem C161_parse (upper upper' : Str → Str) (fs fs' : FileSystem) (fuel fuel' : Nat)
    (argv argv' args args' : List Str) (os os' : List Opt) (out out' : List (VMsg ParseMsg))
    (hm : Means PARSE_OPTS argv os args) (hm' : Means PARSE_OPTS argv' os' args')
    (hn : ∀ f ∈ args, ' ' ∉ f ∧ '\n' ∉ f) (hn' : ∀ f ∈ args', ' ' ∉ f ∧ '\n' ∉ f)
    (h : parseCmd upper fs fuel argv = (out, .ok ()))
    (h' : parseCmd upper' fs' fuel' argv' = (out', .ok ()))
    (ht : parseStdout out = parseStdout out') :
    ∃ src src', Sources fs args src ∧ Sources fs' args' src' ∧
      (src.filter fun s => decide (BadInstr s)).map seen =
        (src'.filter fun s => decide (BadInstr s)).map seen ∧
      (if Given os (py "debug") then
          (src.filter fun s => decide (∃ i, HasInstr s i)).map seen else []) =
        (if Given os' (py "debug") then
          (src'.filter fun s => decide (∃ i, HasInstr s i)).map seen else []) ∧
      out.filterMap extra = out'.filterMap extra := by
  have tell : ∀ {upper : Str → Str} {fs : FileSystem} {fuel : Nat} {args : List Str}
      {v debug : Bool} {pre tail : List (VMsg ParseMsg)} {src : List Src},
      parseV v upper fs fuel debug args = (pre ++ tail, .ok ()) →
      (∀ f ∈ args, ' ' ∉ f ∧ '\n' ∉ f) → Sources fs args src →
      (pre.filterMap onStdout).filterMap usual =
        (src.map srcCard).flatMap (cardMsgs ⟨false, false, false, debug, false, false⟩) →
      ∀ m ∈ pre.filterMap onStdout, TellMsg m := by
    intro upper fs fuel args v debug pre tail src h hn hs hu
    refine tell_all (by rw [hu]; exact cardMsgs_tell (sources_tell hs hn) _) ?_
    rw [onStdout_extra]
    cases v with
    | false =>
      obtain ⟨syms, checks, -, h2, -⟩ := C151_parse false upper fs fuel debug args
      rw [h] at h2
      simp only at h2
      intro x hx
      obtain ⟨m, hm, he⟩ := List.mem_filterMap.1 hx
      have hm' := List.mem_append_left tail hm
      rw [h2] at hm'
      obtain ⟨y, -, rfl⟩ := List.mem_map.1 hm'
      cases he
    | true =>
      obtain ⟨notes, srcs, h2, h3, h4⟩ := C152_parse _ _ _ _ _ _ h
      rw [List.filterMap_append] at h4
      intro x hx
      have hx' := List.mem_append_left (tail.filterMap extra) hx
      rw [h4] at hx'
      rcases List.mem_append.1 hx' with hx' | hx'
      · obtain ⟨n, hn', rfl⟩ := List.mem_map.1 hx'
        obtain ⟨m, hm, hnm⟩ := List.mem_flatten.1 hn'
        exact .inl ⟨n, rfl, notes_tell h2 hn m hm n hnm⟩
      · exact extras_tell hn h2 h3 _ x hx'
  have h1 := parseCmd_run hm h
  have h1' := parseCmd_run hm' h'
  obtain ⟨src, pre, n, hs, rfl, hu⟩ := parseV_shape h1
  obtain ⟨src', pre', n', hs', rfl, hu'⟩ := parseV_shape h1'
  rw [parseStdout_split, parseStdout_split] at ht
  obtain ⟨r1, r2, r3, -⟩ := heads_read hu hu' (tell h1 hn hs hu) (tell h1' hn' hs' hu')
    ⟨_, _, rfl, .inl rfl⟩ ⟨_, _, rfl, .inl rfl⟩ (parseTail_newline _ _) (parseTail_newline _ _) ht
  refine ⟨src, src', hs, hs', r1, by simpa using r2, ?_⟩
  rw [onStdout_extra, onStdout_extra] at r3
  rw [List.filterMap_append, List.filterMap_append, r3]
  rfl

/-- Files for the examples below: one with a comment, a starred line and an instruction that does not
exist, and two that print the same although their lines differ. -/
def spokenFs : FileSystem := fun f =>
  if f = py "T" then
    some (py "# x\n                   TN\n       *           TX\n                   ZZ\n")
  else if f = py "A" then some (py "2                      TN\n")
  else if f = py "A 1" then some (py "#\n                     TN\n")
  else none

/-- C160 and C161: what is printed. -/
example :
    checkStdout (checkInstructionsCmd spokenFs 10 [py "-pv", py "T"]).1 =
      py "Reading T...\nSkipping meta-comment, file T, line 1\nT 2                    TN\nT 3        *           TX\nSkipping card with * in column 8:\nT 3        *           TX\nT 4                    ZZ\n*** ERROR: Invalid instruction \"ZZ\":\nFile T, line 4:                    ZZ\n1 error encountered.\n" ∧
    hasPrefix (py "\nSource lines: 1\n\nInstruction Frequencies:\nTotal         1  100.00%\nTN            1  100.00%\n\nUnused Instructions:\n")
      (checkStdout (checkInstructionsCmd spokenFs 10 [py "-cu", py "A"]).1) = true ∧
    parseStdout (parseCmd id spokenFs 10 [py "-d", py "T"]).1 =
      py "T 2                    TN\nT 3        *           TX\nT 4                    ZZ\n*** ERROR: Invalid instruction \"ZZ\":\nFile T, line 4:                    ZZ\n\nSource lines: 3\n1 error encountered.\n" := by
  refine ⟨?_, ?_, ?_⟩ <;> decide +kernel

/-- C161: names with blanks have to be excluded. -/
example :
    checkStdout (checkInstructionsCmd spokenFs 10 [py "-p", py "A"]).1 =
      checkStdout (checkInstructionsCmd spokenFs 10 [py "-p", py "A 1"]).1 ∧
    (checkInstructionsCmd spokenFs 10 [py "-p", py "A"]).2 = .ok () ∧
    (checkInstructionsCmd spokenFs 10 [py "-p", py "A 1"]).2 = .ok () ∧
    (checkInstructionsCmd spokenFs 10 [py "-p", py "A"]).1 ≠
      (checkInstructionsCmd spokenFs 10 [py "-p", py "A 1"]).1 := by
  refine ⟨?_, ?_, ?_, ?_⟩ <;> decide +kernel

/-- C160: a command line as in its hypotheses. -/
example : Means CHECK_INSTRUCTIONS_OPTS [py "-cu", py "A"]
      [⟨py "-c", py "--count", some (py "count")⟩, ⟨py "-u", py "--unused", some (py "unused")⟩]
      [py "A"] ∧ (checkInstructionsCmd spokenFs 10 [py "-cu", py "A"]).2 = .ok () := by
  refine ⟨?_, by decide +kernel⟩
  exact .letters (cs := py "cu") (os := [_, _]) (by decide)
    (.cons ⟨by decide, rfl⟩ (.cons ⟨by decide, rfl⟩ .nil)) (.plain (.inr (by decide)) .done)

end H800
