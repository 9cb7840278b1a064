import Verif.Py

/-!
Vocabulary for statements about cards and decks: text, stripped text, include expansion.
-/

namespace H800.Spec

/-- All characters are white space. -/
def Blank (s : Str) : Prop := ∀ c ∈ s, isSpace c = true

/-- The text starts and ends with a non-space character, or is empty. -/
def Trimmed (s : Str) : Prop :=
  (∀ c ∈ s.head?, isSpace c = false) ∧ (∀ c ∈ s.getLast?, isSpace c = false)

/-- `t` is `s` without the surrounding white space. -/
def Stripped (s t : Str) : Prop := Trimmed t ∧ ∃ a b, Blank a ∧ Blank b ∧ s = a ++ t ++ b

/-- The entry of a field: nothing for a blank field, otherwise its stripped (non-empty) text. -/
def IsEntry (field : Str) : Option Str → Prop
  | none => Blank field
  | some t => t ≠ [] ∧ Stripped field t

/-- Columns `a` up to but not including `b` of a line, counted from 1. -/
def columns (s : Str) (a b : Nat) : Str := (s.drop (a - 1)).take (b - a)

/-- The first character of a line is P, R or L. -/
def PRL (line : Str) : Prop :=
  line.head? = some 'P' ∨ line.head? = some 'R' ∨ line.head? = some 'L'

/-- `p` is the part of `s` before its first `c` (all of it, if there is none). -/
def BeforeFirst (c : Char) (s p : Str) : Prop := c ∉ p ∧ (s = p ∨ ∃ r, s = p ++ c :: r)

/-- A source line: file, line number counted from 1, text. -/
structure Src where
  /-- file name -/
  file : Str
  /-- line number -/
  num : Nat
  /-- text of the line, with its newline -/
  text : Str
  deriving DecidableEq, Repr

/-- The first word of a text. -/
def Word1 (s w : Str) : Prop :=
  w ≠ [] ∧ (∀ c ∈ w, isSpace c = false) ∧
    ∃ a r, Blank a ∧ s = a ++ w ++ r ∧ ∀ c ∈ r.head?, isSpace c = true

/-- The lines `ls` of `file`, starting at line `i`, expand to the source lines `out`: comments are
dropped and an include line is replaced by the expansion of the named file. -/
inductive Expand (fs : Str → Option Str) : Str → Nat → List Str → List Src → Prop
  | nil (file : Str) (i : Nat) : Expand fs file i [] []
  | comment {file : Str} {i : Nat} {l : Str} {ls : List Str} {out : List Src} :
      Expand fs file (i + 1) ls out → Expand fs file i (('#' :: l) :: ls) out
  | incl {file : Str} {i : Nat} {l : Str} {ls : List Str} {name text : Str} {inner out : List Src} :
      Word1 l name → fs name = some text → Expand fs name 1 (readlines text) inner →
      Expand fs file (i + 1) ls out → Expand fs file i (('$' :: l) :: ls) (inner ++ out)
  | plain {file : Str} {i : Nat} {l : Str} {ls : List Str} {out : List Src} :
      l.head? ≠ some '#' → l.head? ≠ some '$' →
      Expand fs file (i + 1) ls out → Expand fs file i (l :: ls) (⟨file, i, l⟩ :: out)

/-- A file expands to the source lines `out`. -/
def Expands (fs : Str → Option Str) (file : Str) (out : List Src) : Prop :=
  ∃ text, fs file = some text ∧ Expand fs file 1 (readlines text) out

/-- `file` has a line including `name`. -/
def Includes (fs : Str → Option Str) (file name : Str) : Prop :=
  ∃ text, fs file = some text ∧ ∃ l, '$' :: l ∈ readlines text ∧ Word1 l name

/-- The lines that are not comments, with their positions counted from 1 (comments included in the
count). -/
def numbered (lines : List Str) : List (Str × Nat) :=
  (lines.zipIdx 1).filter fun p => p.1.head? ≠ some '#'

/-- The maximal pieces of a text between newlines (Python `s.split('\n')`). -/
def splitLines : Str → List Str
  | [] => [[]]
  | c :: s =>
    if c = '\n' then [] :: splitLines s
    else match splitLines s with
      | [] => [[c]]
      | l :: ls => (c :: l) :: ls

end H800.Spec
