import Verif.Props.Disk
import Verif.Lemmas.SymbolsSrc
import Verif.Lemmas.Verbose

/-!
A byte order mark at the start of a file (C217).
-/

namespace H800

open Spec

/-- The byte order mark. -/
def bom : Char := '\uFEFF'

/-- A disk with one file. -/
def oneDisk (name : Str) (bytes : List UInt8) : Disk := fun f => if f = name then some (.file bytes) else none

/-- C217: a file means the same with a byte order mark (the bytes EF BB BF in UTF-8) before its text. -/
def C217_statement : Prop :=
  ∀ (name text : Str) (n : Nat),
    deckCardsD (α := Str) false (oneDisk name ([0xEF, 0xBB, 0xBF] ++ encoded text)) n name =
      deckCardsD false (oneDisk name (encoded text)) n name

/-- C217: a comment becomes a card. -/
theorem C217_refuted : ¬ C217_statement := by
  intro h
  have h1 := h (py "a") (py "# c\n") 5
  rw [← utf8Encode_encoded] at h1
  revert h1
  decide +kernel

/-- C217: and a file to be included is not. -/
theorem C217_include_refuted :
    (deckCardsD (α := Str) false (oneDisk (py "a") (utf8Encode (py "$b\n"))) 5 (py "a")).2 =
      .error (.exit (py "File \"b\" does not exist")) ∧
    ∃ c, (deckCardsD (α := Str) false (oneDisk (py "a") ([0xEF, 0xBB, 0xBF] ++ utf8Encode (py "$b\n"))) 5
      (py "a")).2 = .ok [c] ∧ c.lognum = some (py "$b") := by
  refine ⟨by decide +kernel, ?_⟩
  exact ⟨⟨some (py "a"), 1, some [bom], some (py "$b"), none, none, none, none, none, none, none,
    bom :: py "$b"⟩, by decide +kernel, rfl⟩

theorem encoded_bom (text : Str) : encoded (bom :: text) = [0xEF, 0xBB, 0xBF] ++ encoded text := by
  have : encoded (bom :: text) = String.utf8EncodeChar bom ++ encoded text := rfl
  rw [this]
  congr 1

theorem expand_bom {fs : FileSystem} {f l : Str} {ls : List Str} {src : List Src} :
    Expand fs f 1 ((bom :: l) :: ls) src ↔
      ∃ src', Expand fs f 2 ls src' ∧ src = ⟨f, 1, bom :: l⟩ :: src' := by
  constructor
  · intro h
    generalize hx : (bom :: l) :: ls = x at h
    cases h with
    | nil => cases hx
    | comment => cases hx
    | incl => cases hx
    | plain _ _ h => cases hx; exact ⟨_, h, rfl⟩
  · rintro ⟨src', h, rfl⟩
    exact .plain (by simp [bom]) (by simp [bom]) h

/-- C217: exactly: the file is read as with the mark as first character of its first line: this is a card,
with the mark in column 1 and every other column one to the right, so that it is never a remark (P, R), a
log card (L), a comment or a line that includes a file. The other lines are read as they are. -/
theorem C217_read_partial (disk : Disk) (chars : FileSystem) (hs : Stored disk chars) (f text l : Str)
    (ls : List Str) (hd : disk f = some (.file ([0xEF, 0xBB, 0xBF] ++ encoded text)))
    (hl : readlines (universal text) = l :: ls ∨ text = [] ∧ l = [] ∧ ls = []) :
    (∀ src, Expands (textFiles chars) f src ↔
      ∃ src', Expand (textFiles chars) f 2 ls src' ∧ src = ⟨f, 1, bom :: l⟩ :: src') ∧
    ∀ (v : Bool) (n : Nat) (out : List (VMsg Str)) (cards : List CodeCard),
      deckCardsD v disk n f = (out, .ok cards) → ∃ c rest, cards = c :: rest ∧
        c.column1 = some [bom] ∧ c.line = 1 ∧ c.text = bom :: remove l '\n' ∧
        IsEntry (columns l 1 7) c.lognum ∧ IsEntry (columns l 7 8) c.column8 ∧
        IsEntry (columns l 8 19) c.label ∧ IsEntry (columns l 19 32) c.operation ∧
        IsEntry (columns l 32 46) c.addressa ∧ IsEntry (columns l 46 60) c.addressb ∧
        IsEntry (columns l 60 75) c.addressc ∧
        ∃ src', Expand (textFiles chars) f 2 ls src' ∧ rest = src'.map srcCard := by
  have ht : textFiles chars f = some (bom :: universal text) := by
    have : chars f = some (bom :: text) := (hs f _).2 (by rw [hd, encoded_bom])
    unfold textFiles
    rw [this]
    rfl
  have hr : readlines (bom :: universal text) = (bom :: l) :: ls := by
    rcases hl with hl | ⟨rfl, rfl, rfl⟩
    · rw [readlines, hl]
      rfl
    · decide
  have key : ∀ src, Expands (textFiles chars) f src ↔
      ∃ src', Expand (textFiles chars) f 2 ls src' ∧ src = ⟨f, 1, bom :: l⟩ :: src' := by
    intro src
    rw [← expand_bom, ← hr]
    constructor
    · rintro ⟨t, h1, h2⟩
      rw [ht] at h1
      cases h1
      exact h2
    · exact fun h => ⟨_, ht, h⟩
  refine ⟨key, fun v n out cards h => ?_⟩
  have hsame := C216_deck (α := Str) disk chars hs v n f
  rw [h] at hsame
  have h2 : deckCards (textFiles chars) n f = .ok cards := by
    rw [← deckCardsV_snd (α := Str) v]
    generalize deckCardsV v (textFiles chars) n f = y at hsame
    cases hsame
    rfl
  obtain ⟨-, src, hsrc, rfl⟩ := deckCards_ok h2
  obtain ⟨src', h3, rfl⟩ := (key src).1 hsrc
  refine ⟨_, _, rfl, ?_⟩
  have hc : columns (bom :: l) 1 2 = [bom] := rfl
  have hv : Card.isPRL (val [bom]) = false := by decide
  have h1 : PunchCard.entry [bom] = some [bom] := by decide
  refine ⟨h1, rfl, ?_, isEntry_entry (columns (bom :: l) 2 8), isEntry_entry (columns (bom :: l) 8 9), ?_, ?_,
    ?_, ?_, ?_, src', h3, rfl⟩
  · show remove (bom :: l) '\n' = _
    simp [remove, bom]
  all_goals
    simp only [srcCard, hc, hv]
    exact isEntry_entry _

/-- C217 is not vacuous: a log card with a mark is no log card. -/
example :
    (deckCardsD (α := Str) false (oneDisk (py "a") ([0xEF, 0xBB, 0xBF] ++ utf8Encode (py "L      @NAME\nP x\n")))
      5 (py "a")).2.map (fun cards => cards.map fun c => (c.column1, c.column8, c.label)) =
    .ok [(some [bom], none, some (py "@NAME")), (some (py "P"), none, none)] := by
  decide +kernel

end H800
