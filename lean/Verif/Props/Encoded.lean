import Verif.Spec.Encoded
import Verif.Props.Verbose
import Verif.Props.Idle
import Verif.Props.Newlines

/-!
C242: a tool prints all it has to say, whatever characters the sources hold.
-/

namespace H800

open Spec

/-! ### One stream -/

theorem printIn_all {enc : Char → Bool} {ls : List Str} (r : Py Unit)
    (h : ∀ l ∈ ls, ∀ c ∈ l, enc c = true) : printIn enc ls r = (printed ls, r) := by
  induction ls with
  | nil => rfl
  | cons l ls ih =>
    rw [printIn, if_pos (List.all_eq_true.2 (h l List.mem_cons_self)),
      ih fun x hx => h x (List.mem_cons_of_mem _ hx)]
    simp [printed]

/-- C242: a stream on which a line cannot be written has got all lines before the first such line and
nothing of the later ones, and the script has stopped with the error. -/
theorem C242_stops (enc : Char → Bool) (before after : List Str) (l : Str) (r : Py Unit)
    (hb : ∀ x ∈ before, ¬ Lacks enc x) (hl : Lacks enc l) :
    printIn enc (before ++ l :: after) r = (printed before, .error .valueError) := by
  induction before with
  | nil =>
    obtain ⟨c, hc, he⟩ := hl
    rw [List.nil_append, printIn, if_neg]
    · rfl
    · intro h
      rw [List.all_eq_true.1 h c hc] at he
      cases he
  | cons x before ih =>
    have hx : x.all enc = true := by
      rw [List.all_eq_true]
      intro c hc
      by_contra h
      exact hb x List.mem_cons_self ⟨c, hc, Bool.eq_false_iff.2 h⟩
    rw [List.cons_append, printIn, if_pos hx, ih fun y hy => hb y (List.mem_cons_of_mem _ hy)]
    simp [printed]

/-! ### Where the characters come from -/

/-- All characters of the text can be encoded. -/
def EncLine (enc : Char → Bool) (s : Str) : Prop := ∀ c ∈ s, enc c = true

/-- All characters of the messages can be encoded. -/
def EncMsgs {α : Type} (enc : Char → Bool) (text : VMsg α → List Str) (out : List (VMsg α)) : Prop :=
  ∀ m ∈ out, ∀ l ∈ text m, EncLine enc l

/-- The notes while reading are printed as punchcard.py does it (192, 197-198). -/
def TellsNotes {α : Type} (text : VMsg α → List Str) : Prop :=
  ∃ body : α → List Str, (∀ f : Str, text (.reading f) = VMsg.text body (.reading f)) ∧
    ∀ (f : Str) (n : Nat), text (.meta_ f n) = VMsg.text body (.meta_ f n)

/-- All characters of what is printed of a card can be encoded. -/
structure EncCard (enc : Char → Bool) (c : CodeCard) : Prop where
  /-- the name of the file -/
  file : EncLine enc (c.file.getD (py "None"))
  /-- the instruction -/
  inst : EncLine enc (c.instruction.getD (py "None"))
  /-- the line -/
  text : EncLine enc c.text

section
variable {enc : Char → Bool}

theorem encLine_append {a b : Str} (ha : EncLine enc a) (hb : EncLine enc b) : EncLine enc (a ++ b) := by
  intro c hc
  rcases List.mem_append.1 hc with h | h
  · exact ha c h
  · exact hb c h

theorem encLine_cons {a : Char} {b : Str} (ha : enc a = true) (hb : EncLine enc b) :
    EncLine enc (a :: b) := by
  intro c hc
  rcases List.mem_cons.1 hc with rfl | h
  · exact ha
  · exact hb c h

theorem encLine_sub {a b : Str} (hb : EncLine enc b) (h : ∀ c ∈ a, c ∈ b) : EncLine enc a :=
  fun c hc => hb c (h c hc)

theorem encLine_replicate {a : Char} (ha : enc a = true) (n : Nat) : EncLine enc (List.replicate n a) := by
  intro c hc
  rw [List.eq_of_mem_replicate hc]
  exact ha

theorem encMsgs_append {α : Type} {text : VMsg α → List Str} {a b : List (VMsg α)}
    (ha : EncMsgs enc text a) (hb : EncMsgs enc text b) : EncMsgs enc text (a ++ b) := by
  intro m hm
  rcases List.mem_append.1 hm with h | h
  · exact ha m h
  · exact hb m h

theorem encMsgs_nil {α : Type} {text : VMsg α → List Str} : EncMsgs enc text [] := fun _ h => nomatch h

theorem encMsgs_one {α : Type} {text : VMsg α → List Str} {m : VMsg α}
    (h : ∀ l ∈ text m, EncLine enc l) : EncMsgs enc text [m] := by
  intro x hx
  rw [List.mem_singleton.1 hx]
  exact h

variable (ha : ∀ c : Char, c.toNat < 128 → enc c = true)
include ha

theorem encLine_ascii {s : Str} (h : ∀ c ∈ s, c.toNat < 128) : EncLine enc s := fun c hc => ha c (h c hc)

theorem encLine_numeral (n : Nat) : EncLine enc (numeral 10 n) := by
  intro c hc
  have h := (numeral_decimal n).2.1 c hc
  have e : '9'.toNat = 57 := rfl
  exact ha c (by omega)

theorem encLine_pyStr (n : Int) : EncLine enc (pyStr n) := by
  unfold pyStr
  split
  · exact encLine_cons (ha _ (by decide)) (encLine_numeral ha _)
  · exact encLine_numeral ha _

theorem encLine_padLeft {c : Char} (hc : c.toNat < 128) (w : Nat) {s : Str} (hs : EncLine enc s) :
    EncLine enc (padLeft c w s) := encLine_append (encLine_replicate (ha _ hc) _) hs

theorem encLine_padRight (w : Nat) {s : Str} (hs : EncLine enc s) : EncLine enc (padRight w s) :=
  encLine_append hs (encLine_replicate (ha _ (by decide)) _)

theorem encLine_fixed2 (h : ℤ) : EncLine enc (fixed2 h) :=
  encLine_append (encLine_numeral ha _) (encLine_cons (ha _ (by decide))
    (encLine_padLeft ha (by decide) _ (encLine_numeral ha _)))

theorem encLine_freq {i : Str} (hi : EncLine enc i) (n t : Nat) : EncLine enc (freqText i n t) := by
  unfold freqText
  refine encLine_append (encLine_append (encLine_append (encLine_padRight ha _ hi) ?_) ?_) ?_
  · exact encLine_cons (ha _ (by decide)) (encLine_padLeft ha (by decide) _ (encLine_numeral ha _))
  · exact encLine_cons (ha _ (by decide)) (encLine_cons (ha _ (by decide))
      (encLine_padLeft ha (by decide) _ (encLine_fixed2 ha _)))
  · exact encLine_ascii ha (by decide)

theorem encLine_total (n : Nat) : EncLine enc (totalText n) := by
  unfold totalText
  refine encLine_append (encLine_append (encLine_append (encLine_padRight ha _
    (encLine_ascii ha (by decide))) ?_) ?_) ?_
  · exact encLine_cons (ha _ (by decide)) (encLine_padLeft ha (by decide) _ (encLine_numeral ha _))
  · exact encLine_cons (ha _ (by decide)) (encLine_cons (ha _ (by decide))
      (encLine_padLeft ha (by decide) _ (encLine_fixed2 ha _)))
  · exact encLine_ascii ha (by decide)

theorem encLine_card {c : CodeCard} (hc : EncCard enc c) : EncLine enc (cardText c) :=
  encLine_append (encLine_append hc.file (encLine_cons (ha _ (by decide)) (encLine_pyStr ha _)))
    (encLine_cons (ha _ (by decide)) (encLine_sub hc.text fun _ h => (List.mem_filter.1 h).1))

theorem encLine_listLine (d : Bool) {c : CodeCard} (hc : EncCard enc c) : EncLine enc (listLine d c) := by
  unfold listLine
  split
  · exact encLine_append (encLine_append (encLine_padRight ha _ hc.file) (encLine_cons (ha _ (by decide))
      (encLine_padLeft ha (by decide) _ (encLine_pyStr ha _)))) (encLine_cons (ha _ (by decide)) hc.text)
  · exact hc.text

theorem enc_invalid {c : CodeCard} (hc : EncCard enc c) :
    ∀ l ∈ (CheckMsg.invalid c).text, EncLine enc l := by
  intro l hl
  simp only [CheckMsg.text, List.mem_cons, List.not_mem_nil, or_false] at hl
  rcases hl with rfl | rfl
  · exact encLine_append (encLine_append (encLine_ascii ha (by decide)) hc.inst)
      (encLine_ascii ha (by decide))
  · exact encLine_append (encLine_append (encLine_append (encLine_append (encLine_append
      (encLine_ascii ha (by decide)) hc.file) (encLine_ascii ha (by decide))) (encLine_pyStr ha _))
      (encLine_ascii ha (by decide))) hc.text

theorem enc_lines (n : Nat) : ∀ l ∈ (CheckMsg.lines n).text, EncLine enc l := by
  intro l hl
  simp only [CheckMsg.text, List.mem_cons, List.not_mem_nil, or_false] at hl
  rcases hl with rfl | rfl
  · exact fun c hc => nomatch hc
  · exact encLine_append (encLine_ascii ha (by decide)) (encLine_pyStr ha _)

theorem enc_total (n : Nat) : ∀ l ∈ (CheckMsg.total n).text, EncLine enc l := by
  intro l hl
  simp only [CheckMsg.text, List.mem_cons, List.not_mem_nil, or_false] at hl
  rcases hl with rfl | rfl | rfl
  · exact fun c hc => nomatch hc
  · exact encLine_ascii ha (by decide)
  · exact encLine_total ha _

theorem enc_errors (n : Nat) : ∀ l ∈ (CheckMsg.errors n).text, EncLine enc l := by
  intro l hl
  simp only [CheckMsg.text, List.mem_cons, List.not_mem_nil, or_false] at hl
  subst hl
  split
  · exact encLine_ascii ha (by decide)
  · exact encLine_append (encLine_pyStr ha _) (encLine_ascii ha (by decide))

theorem enc_starred {α : Type} (body : α → List Str) {c : CodeCard} (hc : EncCard enc c) :
    ∀ l ∈ VMsg.text body (.starred c), EncLine enc l := by
  intro l hl
  simp only [VMsg.text, List.mem_cons, List.not_mem_nil, or_false] at hl
  rcases hl with rfl | rfl
  · exact encLine_ascii ha (by decide)
  · exact encLine_card ha hc

/-- A note names a file whose name can be encoded. -/
theorem enc_note {α : Type} {f : Str} (hf : EncLine enc f) (text : VMsg α → List Str)
    (ht : TellsNotes text) :
    (∀ l ∈ text (.reading f), EncLine enc l) ∧ ∀ n, ∀ l ∈ text (.meta_ f n), EncLine enc l := by
  obtain ⟨body, h1, h2⟩ := ht
  constructor
  · intro l hl
    rw [h1] at hl
    simp only [VMsg.text, List.mem_cons, List.not_mem_nil, or_false] at hl
    subst hl
    exact encLine_append (encLine_append (encLine_ascii ha (by decide)) hf) (encLine_ascii ha (by decide))
  · intro n l hl
    rw [h2] at hl
    simp only [VMsg.text, List.mem_cons, List.not_mem_nil, or_false] at hl
    subst hl
    exact encLine_append (encLine_append (encLine_append (encLine_ascii ha (by decide)) hf)
      (encLine_ascii ha (by decide))) (encLine_pyStr ha _)

end

/-! ### Reading -/

theorem readlines_char {text l : Str} {c : Char} (hl : l ∈ readlines text) (hc : c ∈ l) : c ∈ text := by
  rw [← flatten_readlines text]
  exact List.mem_flatten.2 ⟨l, hl, hc⟩

section
variable {enc : Char → Bool} {fs : FileSystem} {files : List Str} (he : CanEncode enc fs files)
include he

/-- The names of the files that a run reads can be encoded. -/
theorem enc_reached {f : Str} (h : Reached fs files f) : EncLine enc f := by
  induction h with
  | given h => exact he.names _ h
  | include_ h hi ih =>
    obtain ⟨text, ht, l, hl, -, -, a, r, -, e, -⟩ := hi
    refine encLine_sub (he.texts _ h text ht) fun c hc => readlines_char hl ?_
    rw [e]
    exact List.mem_cons_of_mem _ (List.mem_append_left _ (List.mem_append_right _ hc))

theorem enc_readLoop {α : Type} {text : VMsg α → List Str}
    (ht : TellsNotes text)
    {v : Bool} {cls : CardClass} {width : Int} {fields : List Int}
    {read : Str → List (VMsg α) × Py (List PunchCard)} {file src : Str} (hf : Reached fs files file)
    (hs : fs file = some src) (hr : ∀ g, Reached fs files g → EncMsgs enc text (read g).1) (i : Nat)
    (ls : List Str) (hls : ∀ l ∈ ls, l ∈ readlines src) :
    EncMsgs enc text (Deck.readLoopV v fs cls width fields true read file i ls).1 := by
  have hn := enc_note he.ascii (enc_reached he hf) text ht
  induction ls generalizing i with
  | nil => rw [Deck.readLoopV]; exact encMsgs_nil
  | cons l ls ih =>
    have ih := ih (i + 1) fun x hx => hls x (List.mem_cons_of_mem _ hx)
    rcases line_cases l with ⟨t, rfl⟩ | ⟨t, rfl⟩ | ⟨h1, h2⟩
    · rw [readLoopV_comment]
      refine encMsgs_append ?_ ih
      split
      · exact encMsgs_one (hn.2 _)
      · exact encMsgs_nil
    · rw [readLoopV_include]
      cases hw : firstWord t with
      | error e => exact encMsgs_nil
      | ok inc =>
        have hg : Reached fs files inc :=
          .include_ hf ⟨src, hs, t, hls _ List.mem_cons_self, firstWord_ok.1 hw⟩
        have hr := hr inc hg
        simp only
        split
        · exact encMsgs_nil
        · generalize read inc = p at hr
          obtain ⟨o, p⟩ := p
          cases p with
          | error e => exact hr
          | ok a =>
            generalize Deck.readLoopV v fs cls width fields true read file (i + 1) ls = q at ih
            obtain ⟨o', q⟩ := q
            cases q with
            | error e => exact encMsgs_append hr ih
            | ok b => exact encMsgs_append hr ih
    · rw [readLoopV_plain _ _ _ _ _ _ h1 h2]
      cases cls l width fields (some file) (i + 1) with
      | error e => exact encMsgs_nil
      | ok c =>
        generalize Deck.readLoopV v fs cls width fields true read file (i + 1) ls = q at ih
        obtain ⟨o', q⟩ := q
        cases q with
        | error e => exact ih
        | ok b => exact ih

theorem enc_readSource {α : Type} {text : VMsg α → List Str}
    (ht : TellsNotes text)
    {v : Bool} {cls : CardClass} {width : Int} {fields : List Int} (fuel : Nat) {file : Str}
    (hf : Reached fs files file) :
    EncMsgs enc text (Deck.readSourceV v fs cls width fields fuel true file).1 := by
  induction fuel generalizing file with
  | zero => exact encMsgs_nil
  | succ fuel ih =>
    rw [Deck.readSourceV]
    cases hs : fs file with
    | none => exact encMsgs_nil
    | some src =>
      refine encMsgs_append ?_ (enc_readLoop he ht hf hs (fun g hg => ih hg) 0 _ fun l hl => hl)
      split
      · exact encMsgs_one (enc_note he.ascii (enc_reached he hf) text ht).1
      · exact encMsgs_nil

theorem enc_deckNotes {α : Type} {text : VMsg α → List Str}
    (ht : TellsNotes text)
    (v : Bool) (fuel : Nat) {file : Str} (hf : Reached fs files file) :
    EncMsgs enc text (deckCardsV v fs fuel file).1 := by
  cases file with
  | nil => exact encMsgs_nil
  | cons c cs => rw [deckCardsV_fst]; exact enc_readSource he ht fuel hf

/-- The lines of a deck come from files that the run reads. -/
theorem enc_expand {file : Str} {i : Nat} {ls : List Str} {out : List Src} (h : Expand fs file i ls out) :
    Reached fs files file → (∀ text, fs file = some text → ∀ l ∈ ls, l ∈ readlines text) →
      (∃ text, fs file = some text) →
      ∀ s ∈ out, EncLine enc s.file ∧ EncLine enc s.text := by
  induction h with
  | nil => intro _ _ _ s hs; cases hs
  | comment _ ih =>
    intro hf hl ht
    exact ih hf (fun t e l h => hl t e l (List.mem_cons_of_mem _ h)) ht
  | incl hw hf' _ _ ih1 ih2 =>
    intro hf hl ⟨t, ht⟩ s hs
    rcases List.mem_append.1 hs with hs | hs
    · refine ih1 (.include_ hf ⟨t, ht, _, hl t ht _ List.mem_cons_self, hw⟩) ?_ ⟨_, hf'⟩ s hs
      intro t' e l h
      rw [hf'] at e
      cases e
      exact h
    · exact ih2 hf (fun t e l h => hl t e l (List.mem_cons_of_mem _ h)) ⟨t, ht⟩ s hs
  | plain h1 h2 _ ih =>
    intro hf hl ⟨t, ht⟩ s hs
    rcases List.mem_cons.1 hs with rfl | hs
    · exact ⟨enc_reached he hf, fun c hc =>
        he.texts _ hf t ht c (readlines_char (hl t ht _ List.mem_cons_self) hc)⟩
    · exact ih hf (fun t e l h => hl t e l (List.mem_cons_of_mem _ h)) ⟨t, ht⟩ s hs

theorem enc_srcCard {s : Src} (hf : EncLine enc s.file) (ht : EncLine enc s.text) :
    EncCard enc (srcCard s) := by
  refine ⟨hf, ?_, encLine_sub ht fun _ h => (List.mem_filter.1 h).1⟩
  intro c hc
  have hnone : ∀ c ∈ py "None", enc c = true := fun c hc =>
    he.ascii c ((by decide : ∀ c ∈ py "None", c.toNat < 128) c hc)
  unfold srcCard at hc
  simp only at hc
  split at hc
  · exact hnone c hc
  · unfold PunchCard.entry at hc
    split at hc
    · exact hnone c hc
    · simp only [Option.map_some, Option.getD_some] at hc
      have h1 := List.takeWhile_sublist _ |>.mem (strip_mem hc)
      have h2 : c ∈ columns s.text 20 33 := strip_mem h1
      exact ht c (List.mem_of_mem_drop (List.mem_of_mem_take h2))

theorem enc_deckCards {fuel : Nat} {file : Str} (hf : Reached fs files file) {cards : List CodeCard}
    (h : deckCards fs fuel file = .ok cards) : ∀ c ∈ cards, EncCard enc c := by
  obtain ⟨-, out, ⟨t, ht, hx⟩, rfl⟩ := deckCards_ok h
  intro c hc
  obtain ⟨s, hs, rfl⟩ := List.mem_map.1 hc
  have h := enc_expand he hx hf (fun t' e l h => by rw [ht] at e; cases e; exact h) ⟨t, ht⟩ s hs
  exact enc_srcCard he h.1 h.2

end

/-! ### check-instructions -/

theorem tellsNotes_text {α : Type} (body : α → List Str) : TellsNotes (VMsg.text body) :=
  ⟨body, fun _ => rfl, fun _ _ => rfl⟩

/-- The names of the table are ASCII, and what is printed can be encoded. -/
def EncState (enc : Char → Bool) (st : CheckStateV) : Prop :=
  (∀ p ∈ st.instrtab, EncLine enc p.1) ∧ EncMsgs enc (VMsg.text CheckMsg.text) st.out

theorem instructions_ascii : ∀ i ∈ INSTRUCTIONS, ∀ c ∈ i, c.toNat < 128 := by decide +kernel

section
variable {enc : Char → Bool} {fs : FileSystem} {files : List Str} (he : CanEncode enc fs files)
include he

theorem encState_init : EncState enc CheckStateV.init := by
  refine ⟨?_, encMsgs_nil⟩
  intro p hp
  have : p.1 ∈ INSTRUCTIONS := by
    have h : ∀ q ∈ CheckStateV.init.instrtab, q.1 ∈ INSTRUCTIONS := by decide +kernel
    exact h p hp
  exact encLine_ascii he.ascii (instructions_ascii _ this)

theorem encState_step (v : Bool) (opts : CheckOpts) {st : CheckStateV} (h : EncState enc st)
    {c : CodeCard} (hc : EncCard enc c) : EncState enc (checkStepV v opts st c) := by
  obtain ⟨h1, h2⟩ := h
  have hcard : EncMsgs enc (VMsg.text CheckMsg.text) [.msg (.card c)] := by
    apply encMsgs_one
    intro l hl
    simp only [VMsg.text, CheckMsg.text, List.mem_singleton] at hl
    subst hl
    exact encLine_card he.ascii hc
  have hinv : EncMsgs enc (VMsg.text CheckMsg.text) [.msg (.invalid c)] :=
    encMsgs_one (enc_invalid he.ascii hc)
  unfold checkStepV
  cases hi : c.instruction with
  | none => exact ⟨h1, h2⟩
  | some i =>
    cases i with
    | nil => exact ⟨h1, h2⟩
    | cons x xs =>
      have h6 : EncMsgs enc (VMsg.text CheckMsg.text)
          (if opts.printOpcodes then st.out ++ [.msg (.card c)] else st.out) := by
        split
        · exact encMsgs_append h2 hcard
        · exact h2
      simp only
      split
      · refine ⟨h1, ?_⟩
        simp only
        cases v with
        | true => exact encMsgs_append h6 (encMsgs_one (enc_starred he.ascii _ hc))
        | false => exact h6
      · cases hd : dget st.instrtab (x :: xs) with
        | none => exact ⟨h1, encMsgs_append h6 hinv⟩
        | some n =>
          have h7 : ∀ p ∈ dset st.instrtab (x :: xs) (n + 1), EncLine enc p.1 := by
            intro p hp
            have hk : p.1 ∈ (dset st.instrtab (x :: xs) (n + 1)).map (·.1) := List.mem_map_of_mem hp
            rw [dset_keys_same hd] at hk
            obtain ⟨q, hq, e⟩ := List.mem_map.1 hk
            rw [← e]
            exact h1 q hq
          simp only
          split
          · split
            · exact ⟨h7, h6⟩
            · exact ⟨h7, encMsgs_append h6 hinv⟩
          · exact ⟨h7, h6⟩

theorem encState_fold (v : Bool) (opts : CheckOpts) (cards : List CodeCard) {st : CheckStateV}
    (h : EncState enc st) (hc : ∀ c ∈ cards, EncCard enc c) :
    EncState enc (cards.foldl (checkStepV v opts) st) := by
  induction cards generalizing st with
  | nil => exact h
  | cons c cards ih =>
    exact ih (encState_step he v opts h (hc c List.mem_cons_self)) fun x hx =>
      hc x (List.mem_cons_of_mem _ hx)

theorem encState_files (v : Bool) (fuel : Nat) (opts : CheckOpts) (fl : List Str)
    (hfl : ∀ f ∈ fl, f ∈ files) {st : CheckStateV} (h : EncState enc st) :
    EncState enc (checkFilesV v fs fuel opts fl st).1 := by
  induction fl generalizing st with
  | nil => exact h
  | cons f fl ih =>
    have hf : Reached fs files f := .given (hfl f List.mem_cons_self)
    have e1 := deckCardsV_snd (α := CheckMsg) v fs fuel f
    have e2 := enc_deckNotes he (tellsNotes_text CheckMsg.text) v fuel hf
    rw [checkFilesV]
    generalize deckCardsV (α := CheckMsg) v fs fuel f = p at e1 e2
    obtain ⟨o, p⟩ := p
    have h' : EncState enc { st with out := st.out ++ o } := ⟨h.1, encMsgs_append h.2 e2⟩
    cases p with
    | error e => exact h'
    | ok cards =>
      exact ih (fun x hx => hfl x (List.mem_cons_of_mem _ hx))
        (encState_fold he v opts cards h' (enc_deckCards he hf e1.symm))

theorem enc_freqLines (opts : CheckOpts) (n : Nat) (d : Dict Str Nat) (hd : ∀ p ∈ d, EncLine enc p.1) :
    ∀ m ∈ (freqLinesRun opts n d).1, ∀ l ∈ m.text, EncLine enc l := by
  induction d with
  | nil => intro m hm; cases hm
  | cons p d ih =>
    obtain ⟨i, k⟩ := p
    have ih := ih fun q hq => hd q (List.mem_cons_of_mem _ hq)
    rw [freqLinesRun]
    split
    · split
      · intro m hm; cases hm
      · intro m hm
        rcases List.mem_cons.1 hm with rfl | hm
        · intro l hl
          simp only [CheckMsg.text, List.mem_singleton] at hl
          subst hl
          exact encLine_freq he.ascii (hd _ List.mem_cons_self) _ _
        · exact ih m hm
    · exact ih

omit he in
theorem enc_byName {d : Dict Str Nat} (hd : ∀ p ∈ d, EncLine enc p.1) :
    ∀ p ∈ byName d, EncLine enc p.1 := by
  intro p hp
  obtain ⟨i, hi, rfl⟩ := List.mem_map.1 hp
  obtain ⟨q, hq, rfl⟩ := List.mem_map.1 ((pySortedStr_perm _).mem_iff.1 hi)
  exact hd q hq

theorem enc_tail (opts : CheckOpts) (s : CheckState) (hd : ∀ p ∈ s.instrtab, EncLine enc p.1) :
    ∀ m ∈ checkTail opts s, ∀ l ∈ m.text, EncLine enc l := by
  intro m hm
  unfold checkTail at hm
  rcases List.mem_append.1 hm with hm | hm
  · split at hm
    · rcases List.mem_cons.1 hm with rfl | hm
      · intro l hl
        simp only [CheckMsg.text, List.mem_cons, List.not_mem_nil, or_false] at hl
        rcases hl with rfl | rfl
        · exact fun c hc => nomatch hc
        · exact encLine_ascii he.ascii (by decide)
      · obtain ⟨p, hp, rfl⟩ := List.mem_map.1 hm
        intro l hl
        simp only [CheckMsg.text, List.mem_singleton] at hl
        subst hl
        exact enc_byName hd p (List.mem_filter.1 hp).1
    · cases hm
  · rw [List.mem_singleton.1 hm]
    exact enc_errors he.ascii _

omit he in
theorem encMsgs_msgs {α : Type} {body : α → List Str} {l : List α}
    (h : ∀ m ∈ l, ∀ x ∈ body m, EncLine enc x) : EncMsgs enc (VMsg.text body) (l.map .msg) := by
  intro m hm
  obtain ⟨y, hy, rfl⟩ := List.mem_map.1 hm
  exact h y hy

theorem enc_check (v : Bool) (fuel : Nat) (opts : CheckOpts) :
    EncMsgs enc (VMsg.text CheckMsg.text) (checkInstructionsV v fs fuel opts files).1 := by
  unfold checkInstructionsV
  split
  · exact encMsgs_nil
  · have h := encState_files he v fuel opts files (fun _ h => h) (encState_init he)
    generalize checkFilesV v fs fuel opts files CheckStateV.init = p at h
    obtain ⟨st, r⟩ := p
    obtain ⟨h1, h2⟩ := h
    cases r with
    | error e => exact h2
    | ok u =>
      simp only
      split
      · have hd : ∀ p ∈ (if opts.sort then freqtab st.instrtab else byName st.instrtab),
            EncLine enc p.1 := by
          split
          · exact fun p hp => h1 p (mem_pySorted.1 hp)
          · exact enc_byName h1
        have hl := enc_freqLines he opts st.instrcount _ hd
        generalize freqLinesRun opts st.instrcount
          (if opts.sort then freqtab st.instrtab else byName st.instrtab) = q at hl
        obtain ⟨l, r⟩ := q
        have hh : ∀ m ∈ CheckMsg.lines st.linecount :: .total st.instrcount :: l, ∀ x ∈ m.text,
            EncLine enc x := by
          intro m hm
          rcases List.mem_cons.1 hm with rfl | hm
          · exact enc_lines he.ascii _
          · rcases List.mem_cons.1 hm with rfl | hm
            · exact enc_total he.ascii _
            · exact hl m hm
        cases r with
        | error e => exact encMsgs_append h2 (encMsgs_msgs hh)
        | ok u =>
          refine encMsgs_append h2 (encMsgs_msgs ?_)
          intro m hm
          rcases List.mem_append.1 hm with hm | hm
          · exact hh m hm
          · exact enc_tail he opts _ h1 m hm
      · exact encMsgs_append h2 (encMsgs_msgs (enc_tail he opts _ h1))

/-! ### list-instructions -/

theorem enc_listStep (v details : Bool) (opcode : Str) {c : CodeCard} (hc : EncCard enc c) :
    EncMsgs enc listMsgText (listStepV v details opcode c) := by
  unfold listStepV
  split
  · exact encMsgs_nil
  · exact encMsgs_nil
  · split
    · split
      · apply encMsgs_one
        intro l hl
        simp only [listMsgText, List.mem_cons, List.not_mem_nil, or_false] at hl
        rcases hl with rfl | rfl
        · exact encLine_ascii he.ascii (by decide)
        · exact encLine_listLine he.ascii _ hc
      · exact encMsgs_nil
    · have h : EncMsgs enc listMsgText [.msg (listLine details c)] := by
        apply encMsgs_one
        intro l hl
        simp only [listMsgText, VMsg.text, List.mem_singleton] at hl
        subst hl
        exact encLine_listLine he.ascii _ hc
      simp only
      repeat' split
      all_goals first | exact h | exact encMsgs_nil

theorem enc_listFiles (v : Bool) (fuel : Nat) (details : Bool) (opcode : Str) (fl : List Str)
    (hfl : ∀ f ∈ fl, f ∈ files) : EncMsgs enc listMsgText (listFilesV v fs fuel details opcode fl).1 := by
  induction fl with
  | nil => exact encMsgs_nil
  | cons f fl ih =>
    have ih := ih fun x hx => hfl x (List.mem_cons_of_mem _ hx)
    have hf : Reached fs files f := .given (hfl f List.mem_cons_self)
    have e1 := deckCardsV_snd (α := Str) v fs fuel f
    have e2 := enc_deckNotes he (text := listMsgText) ⟨fun l => [l], fun _ => rfl, fun _ _ => rfl⟩ v fuel hf
    rw [listFilesV]
    generalize deckCardsV (α := Str) v fs fuel f = p at e1 e2
    obtain ⟨o, p⟩ := p
    cases p with
    | error e => exact e2
    | ok cards =>
      generalize listFilesV v fs fuel details opcode fl = q at ih
      obtain ⟨l, r⟩ := q
      refine encMsgs_append (encMsgs_append e2 ?_) ih
      intro m hm
      obtain ⟨c, hc, hm⟩ := List.mem_flatMap.1 hm
      exact enc_listStep he v details opcode (enc_deckCards he hf e1.symm c hc) m hm

/-! ### parse -/

theorem enc_parseSymbols (v : Bool) (upper : Str → Str) (fuel : Nat) (fl : List Str)
    (hfl : ∀ f ∈ fl, f ∈ files) (t : Symtab) (n : Nat) :
    EncMsgs enc (VMsg.text fun _ : SymMsg => []) (parseSymbolsV v upper fs fuel fl t n).1 := by
  have hm : ∀ l : List SymMsg, EncMsgs enc (VMsg.text fun _ : SymMsg => []) (l.map .msg) :=
    fun l => encMsgs_msgs fun _ _ _ hx => nomatch hx
  induction fl generalizing t n with
  | nil => exact encMsgs_nil
  | cons f fl ih =>
    have hf : Reached fs files f := .given (hfl f List.mem_cons_self)
    have hb : EncMsgs enc (VMsg.text fun _ : SymMsg => []) (buildV v upper fs fuel f t).1 := by
      have e2 := enc_deckNotes he (tellsNotes_text fun _ : SymMsg => []) v fuel hf
      unfold buildV
      generalize deckCardsV (α := SymMsg) v fs fuel f = p at e2
      obtain ⟨o, p⟩ := p
      cases p with
      | error e => exact e2
      | ok cards =>
        simp only
        generalize buildCardsRun upper (splitFirst f '.') cards ⟨t, py "1", 0, []⟩ = q
        obtain ⟨b, r⟩ := q
        refine encMsgs_append e2 ?_
        have := hm (b.diags.map .diag)
        rw [List.map_map] at this
        exact this
    rw [parseSymbolsV]
    generalize buildV v upper fs fuel f t = p at hb
    obtain ⟨o, b, r⟩ := p
    cases r with
    | error e => exact hb
    | ok u =>
      have ih := ih (fun x hx => hfl x (List.mem_cons_of_mem _ hx)) b.symtab b.errcount
      simp only
      generalize parseSymbolsV v upper fs fuel fl b.symtab b.errcount = q at ih
      obtain ⟨o', r⟩ := q
      exact encMsgs_append (encMsgs_append hb (hm [_])) ih

omit he in
theorem enc_inl {out : List (VMsg SymMsg)} (h : EncMsgs enc (VMsg.text fun _ : SymMsg => []) out) :
    EncMsgs enc (VMsg.text ParseMsg.text) (out.map VMsg.inl) := by
  intro m hm
  obtain ⟨x, hx, rfl⟩ := List.mem_map.1 hm
  have := h x hx
  cases x <;> exact this

theorem enc_parseStep (v debug : Bool) {st : Nat × Nat × List (VMsg ParseMsg)}
    (h : EncMsgs enc (VMsg.text ParseMsg.text) st.2.2) {c : CodeCard} (hc : EncCard enc c) :
    EncMsgs enc (VMsg.text ParseMsg.text) (parseStepV v debug st c).2.2 := by
  obtain ⟨l, e, out⟩ := st
  simp only at h
  unfold parseStepV
  cases hi : c.instruction with
  | none => exact h
  | some i =>
    cases i with
    | nil => exact h
    | cons x xs =>
      have h6 : EncMsgs enc (VMsg.text ParseMsg.text)
          (if debug then out ++ [.msg (.inr (.card c))] else out) := by
        split
        · refine encMsgs_append h (encMsgs_one ?_)
          intro l hl
          simp only [VMsg.text, ParseMsg.text, CheckMsg.text, List.mem_singleton] at hl
          subst hl
          exact encLine_card he.ascii hc
        · exact h
      simp only
      split
      · simp only
        cases v with
        | true => exact encMsgs_append h6 (encMsgs_one (enc_starred he.ascii _ hc))
        | false => exact h6
      · split
        · exact encMsgs_append h6 (encMsgs_one (enc_invalid he.ascii hc))
        · exact h6

theorem enc_parseFold (v debug : Bool) (cards : List CodeCard) {st : Nat × Nat × List (VMsg ParseMsg)}
    (h : EncMsgs enc (VMsg.text ParseMsg.text) st.2.2) (hc : ∀ c ∈ cards, EncCard enc c) :
    EncMsgs enc (VMsg.text ParseMsg.text) (cards.foldl (parseStepV v debug) st).2.2 := by
  induction cards generalizing st with
  | nil => exact h
  | cons c cards ih =>
    exact ih (enc_parseStep he v debug h (hc c List.mem_cons_self)) fun x hx =>
      hc x (List.mem_cons_of_mem _ hx)

theorem enc_parseDecks (v : Bool) (fuel : Nat) (debug : Bool) (fl : List Str)
    (hfl : ∀ f ∈ fl, f ∈ files) {st : Nat × Nat × List (VMsg ParseMsg)}
    (h : EncMsgs enc (VMsg.text ParseMsg.text) st.2.2) :
    EncMsgs enc (VMsg.text ParseMsg.text) (parseDecksV v fs fuel debug fl st).1.2.2 := by
  induction fl generalizing st with
  | nil => exact h
  | cons f fl ih =>
    obtain ⟨a, b, out⟩ := st
    have hf : Reached fs files f := .given (hfl f List.mem_cons_self)
    have e1 := deckCardsV_snd (α := ParseMsg) v fs fuel f
    have e2 := enc_deckNotes he (tellsNotes_text ParseMsg.text) v fuel hf
    rw [parseDecksV]
    generalize deckCardsV (α := ParseMsg) v fs fuel f = p at e1 e2
    obtain ⟨o, p⟩ := p
    cases p with
    | error e => exact encMsgs_append h e2
    | ok cards =>
      refine ih (fun x hx => hfl x (List.mem_cons_of_mem _ hx)) (enc_parseFold he v debug cards ?_
        (enc_deckCards he hf e1.symm))
      exact encMsgs_append h e2

theorem enc_parse (v : Bool) (upper : Str → Str) (fuel : Nat) (debug : Bool) :
    EncMsgs enc (VMsg.text ParseMsg.text) (parseV v upper fs fuel debug files).1 := by
  unfold parseV
  split
  · exact encMsgs_nil
  · have h1 := enc_inl (enc_parseSymbols he v upper fuel files (fun _ h => h) [] 0)
    generalize parseSymbolsV v upper fs fuel files [] 0 = p at h1
    obtain ⟨o, n, r⟩ := p
    cases r with
    | error e => exact h1
    | ok u =>
      have h2 := enc_parseDecks he v fuel debug files (fun _ h => h) (st := (0, n, [])) encMsgs_nil
      simp only
      generalize parseDecksV v fs fuel debug files (0, n, []) = q at h2
      obtain ⟨⟨l, n', o'⟩, r⟩ := q
      cases r with
      | error e => exact encMsgs_append h1 h2
      | ok u =>
        refine encMsgs_append (encMsgs_append h1 h2) ?_
        intro m hm
        simp only [List.mem_cons, List.not_mem_nil, or_false] at hm
        rcases hm with rfl | rfl
        · exact enc_lines he.ascii _
        · exact enc_errors he.ascii _

end

theorem printIn_msgs {α : Type} {enc : Char → Bool} {text : VMsg α → List Str} {out : List (VMsg α)}
    (h : EncMsgs enc text out) (r : Py Unit) :
    printIn enc (out.flatMap text) r = (printed (out.flatMap text), r) := by
  apply printIn_all
  intro l hl
  obtain ⟨m, hm, hl⟩ := List.mem_flatMap.1 hl
  exact h m hm l hl

/-! ### C242 -/

/-- C242 in full for check-instructions: whatever characters the sources hold, an output that has all
characters of ASCII gets all that there is to say, and the script ends as on an output that has all
characters. -/
def C242_statement : Prop :=
  ∀ (enc : Char → Bool) (v : Bool) (fs : FileSystem) (fuel : Nat) (opts : CheckOpts) (args : List Str),
    (∀ c : Char, c.toNat < 128 → enc c = true) →
    checkIn enc v fs fuel opts args = (checkStdout (checkInstructionsV v fs fuel opts args).1,
      (checkInstructionsV v fs fuel opts args).2)

/-- C242: if the output has all characters of ASCII, of the names given and of the files that are read,
check-instructions prints all that it has to say, with every option, and ends as on an output that has
all characters. -/
theorem C242_check_partial (enc : Char → Bool) (v : Bool) (fs : FileSystem) (fuel : Nat)
    (opts : CheckOpts) (args : List Str) (he : CanEncode enc fs args) :
    checkIn enc v fs fuel opts args = (checkStdout (checkInstructionsV v fs fuel opts args).1,
      (checkInstructionsV v fs fuel opts args).2) :=
  printIn_msgs (enc_check he v fuel opts) _

/-- C242: so does parse. -/
theorem C242_parse_partial (enc : Char → Bool) (v : Bool) (upper : Str → Str) (fs : FileSystem)
    (fuel : Nat) (debug : Bool) (args : List Str) (he : CanEncode enc fs args) :
    parseIn enc v upper fs fuel debug args = (parseStdout (parseV v upper fs fuel debug args).1,
      (parseV v upper fs fuel debug args).2) := by
  have e : parseStdout (parseV v upper fs fuel debug args).1 =
      printed (parseLines (parseV v upper fs fuel debug args).1) := by
    unfold parseStdout parseLines
    congr 2
  rw [e]
  exact printIn_msgs (enc_parse he v upper fuel debug) _

/-- C242: so does list-instructions, whatever the first argument, which it does not print. -/
theorem C242_list_partial (enc : Char → Bool) (v : Bool) (fs : FileSystem) (fuel : Nat)
    (details : Bool) (opcode : Str) (files : List Str) (he : CanEncode enc fs files) :
    listIn enc v fs fuel details (opcode :: files) =
      (printed ((listInstructionsV v fs fuel details (opcode :: files)).1.flatMap listMsgText),
        (listInstructionsV v fs fuel details (opcode :: files)).2) := by
  have h : EncMsgs enc listMsgText (listInstructionsV v fs fuel details (opcode :: files)).1 := by
    unfold listInstructionsV
    simp only
    repeat' split
    all_goals first
      | exact encMsgs_nil
      | exact enc_listFiles he v fuel details opcode files fun _ h => h
  exact printIn_msgs h _

/-- A file of two cards; the second has an instruction that does not exist, and an operand with an
accent. -/
def accentFs : FileSystem := fun f =>
  if f = py "A.arg" then some (py "                   TX\n                   XXX          Z\u00E9RO\n") else none

/-- C242 does not hold: the output has ASCII, and the message on the second card cannot be written. The
run stops with an error, and the number of errors is not printed. -/
theorem C242_refuted : ¬ C242_statement := by
  intro h
  have h := h (fun c => decide (c.toNat < 128)) false accentFs 10 ⟨false, false, false, false, false, false⟩
    [py "A.arg"] fun c hc => decide_eq_true hc
  revert h
  decide +kernel

example : checkIn (fun c => decide (c.toNat < 128)) false accentFs 10
    ⟨false, false, false, false, false, false⟩ [py "A.arg"] =
      (py "*** ERROR: Invalid instruction \"XXX\":\n", .error .valueError) := by
  decide +kernel

/-- Latin-1 has all characters of this file. -/
theorem accent_latin1 : CanEncode (fun c => decide (c.toNat < 256)) accentFs [py "A.arg"] := by
  refine ⟨fun c hc => decide_eq_true (by omega), by decide, ?_⟩
  intro f _ text ht
  unfold accentFs at ht
  split at ht
  · cases ht
    decide
  · cases ht

example : checkIn (fun c => decide (c.toNat < 256)) false accentFs 10
    ⟨false, false, false, false, false, false⟩ [py "A.arg"] =
      (py "*** ERROR: Invalid instruction \"XXX\":\nFile A.arg, line 2:                    XXX          Z\u00E9RO\n1 error encountered.\n",
        .ok ()) := by
  decide +kernel

example : parseIn (fun c => decide (c.toNat < 128)) false id accentFs 10 false [py "A.arg"] =
      (py "*** ERROR: Invalid instruction \"XXX\":\n", .error .valueError) ∧
    (parseIn (fun c => decide (c.toNat < 256)) false id accentFs 10 false [py "A.arg"]).2 = .ok () := by
  decide +kernel

/-- A card that is not printed does no harm; one that is listed does. -/
example : listIn (fun c => decide (c.toNat < 128)) false accentFs 10 false [py "TX", py "A.arg"] =
      (py "                   TX\n", .ok ()) ∧
    (checkIn (fun c => decide (c.toNat < 128)) false accentFs 10
      ⟨false, false, false, true, false, false⟩ [py "A.arg"]).2 = .error .valueError := by
  decide +kernel

/-- A line that can be written, and one that cannot. -/
example : ¬ Lacks (fun c => decide (c.toNat < 128)) (py "A") ∧
    Lacks (fun c => decide (c.toNat < 128)) [Char.ofNat 233] ∧
    printIn (fun c => decide (c.toNat < 128)) [py "A", [Char.ofNat 233], py "B"] (.ok ()) =
      (py "A\n", .error .valueError) := by
  unfold Lacks
  decide

end H800
