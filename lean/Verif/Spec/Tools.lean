import Verif.Spec.Bits
import Verif.Spec.Symbols
import Verif.Model.Gen

/-!
Vocabulary for statements about the tools.
-/

namespace H800.Spec

/-- The files, read one after the other, give these source lines. -/
def Sources (fs : Str → Option Str) (files : List Str) (out : List Src) : Prop :=
  ∃ outs, List.Forall₂ (Expands fs) files outs ∧ out = outs.flatten

/-- The instruction of a line: its operation up to the first comma, stripped, if that is not
empty. -/
def HasInstr (s : Src) (i : Str) : Prop :=
  i ≠ [] ∧ ∃ o p, HasOp s o ∧ BeforeFirst ',' o p ∧ Stripped p i

/-- The line has an instruction that is looked at, and it is not known. -/
def BadInstr (s : Src) : Prop := ¬ Starred s ∧ ∃ i, HasInstr s i ∧ i ∉ INSTRUCTIONS

/-- The line is listed by list-instructions for the opcode: it is not starred, and its operation
without spaces is, up to the first comma, the opcode; if the opcode has a comma it is the opcode, or
starts with it if the opcode ends with a comma. -/
def Matches (opcode : Str) (s : Src) : Prop :=
  ¬ Starred s ∧ ∃ o t, HasOp s o ∧ t = o.filter (· ≠ ' ') ∧
    ((',' ∉ opcode ∧ BeforeFirst ',' t opcode) ∨ (',' ∈ opcode ∧ t = opcode) ∨
      ∃ p r, opcode = p ++ [','] ∧ t = opcode ++ r)

/-- The cards reported as invalid. -/
def invalids : List CheckMsg → List CodeCard
  | [] => []
  | .invalid c :: l => c :: invalids l
  | _ :: l => invalids l

/-- The frequency lines. -/
def freqs : List CheckMsg → List (Str × Nat × Nat)
  | [] => []
  | .freq i n t :: l => (i, n, t) :: freqs l
  | _ :: l => freqs l

/-- The instructions listed as unused. -/
def unuseds : List CheckMsg → List Str
  | [] => []
  | .unused i :: l => i :: unuseds l
  | _ :: l => unuseds l

/-- A definition as listed: tag, segment, subsegment, kind, tag type, file, line, card. -/
structure Row where
  /-- tag -/
  tag : Str
  /-- segment -/
  seg : Str
  /-- subsegment -/
  sub : Str
  /-- kind -/
  kind : Str
  /-- tag type -/
  tagtype : Str
  /-- file without extension -/
  file : Str
  /-- line number -/
  line : Int
  /-- text of the card -/
  card : Str
  deriving DecidableEq, Repr

/-- Read a symbol listing: the definition lines with the headings above them. -/
def rows (tag seg sub : Str) : List ListLine → List Row
  | [] => []
  | .sym s :: l => rows s seg sub l
  | .seg s :: l => rows tag s sub l
  | .sub s :: l => rows tag seg s l
  | .entry k tt f n c :: l => ⟨tag, seg, sub, k, tt, f, n, c⟩ :: rows tag seg sub l
  | .errors _ :: l => rows tag seg sub l

/-- Strictly before, for strings. -/
def StrLt (a b : Str) : Prop := strLe a b = true ∧ a ≠ b

/-- Strictly before, by tag, segment, subsegment and kind. -/
def Row.Before (a b : Row) : Prop :=
  StrLt a.tag b.tag ∨ a.tag = b.tag ∧ (StrLt a.seg b.seg ∨ a.seg = b.seg ∧
    (StrLt a.sub b.sub ∨ a.sub = b.sub ∧ StrLt a.kind b.kind))

/-- The dicts of a table have no key twice (a property of dicts that association lists need not
have). -/
def Dicts (t : Symtab) : Prop :=
  (t.map (·.1)).Nodup ∧ ∀ tag segs, dget t tag = some segs → (segs.map (·.1)).Nodup ∧
    ∀ seg subs, dget segs seg = some subs → (subs.map (·.1)).Nodup ∧
      ∀ sub kinds, dget subs sub = some kinds → (kinds.map (·.1)).Nodup

/-- The files with the source lines they give. -/
def Read (fs : Str → Option Str) (files : List Str) (srcs : List (Str × List Src)) : Prop :=
  srcs.map (·.1) = files ∧ ∀ p ∈ srcs, Expands fs p.1 p.2

/-- Line `i` of the lines of the `k`-th file defines the tag, in the segment named by the file (its
name up to the first dot). -/
def DefinedIn (upper : Str → Str) (srcs : List (Str × List Src)) (k i : Nat) (s : Src)
    (tag tagtype seg sub kind : Str) : Prop :=
  ∃ file out, srcs[k]? = some (file, out) ∧ BeforeFirst '.' file seg ∧
    DefinesAt upper out i s tag tagtype sub kind

/-- It does, and no later line, in this file or a later one, defines it again in the same segment
and subsegment and with the same kind. -/
def FinalDef (upper : Str → Str) (srcs : List (Str × List Src)) (k i : Nat) (s : Src)
    (tag tagtype seg sub kind : Str) : Prop :=
  DefinedIn upper srcs k i s tag tagtype seg sub kind ∧
  ∀ k' i' s' tt', (k < k' ∨ k = k' ∧ i < i') →
    ¬ DefinedIn upper srcs k' i' s' tag tt' seg sub kind

/-- The name of every file gives a segment name that is not the name of a kind. -/
def PlainFiles (files : List Str) : Prop :=
  ∀ f ∈ files, ∀ seg, BeforeFirst '.' f seg → PlainSeg seg

/-- Text left-justified in a field of `w` characters. -/
def LeftIn (w : Nat) (s t : Str) : Prop :=
  ∃ k, t = s ++ List.replicate k ' ' ∧ (s.length ≤ w → t.length = w) ∧ (w < s.length → k = 0)

/-- Text right-justified in a field of `w` characters. -/
def RightIn (w : Nat) (s t : Str) : Prop :=
  ∃ k, t = List.replicate k ' ' ++ s ∧ (s.length ≤ w → t.length = w) ∧ (w < s.length → k = 0)

/-- The name of the listing of a file: the name up to its last dot (nothing if there is none) and
".lst". -/
def ListingName (file name : Str) : Prop :=
  ∃ p, name = p ++ py ".lst" ∧
    (('.' ∉ file ∧ p = []) ∨ ∃ e, file = p ++ '.' :: e ∧ '.' ∉ e)

/-- The line of a listing for a source line: file name, line number and text in columns. -/
def ListingLine (s : Src) (l : Str) : Prop :=
  ∃ a b, LeftIn 64 s.file a ∧ LeftIn 6 (numeral 10 s.num) b ∧
    l = a ++ ' ' :: b ++ ' ' :: s.text.filter (· ≠ '\n')

/-- Listing the files one after the other turns one file system into the other: the listing of each
file has a line for each of its source lines. -/
inductive Listed : (Str → Option Str) → List Str → (Str → Option Str) → Prop
  | nil (fs) : Listed fs [] fs
  | cons {fs fs1 fs' : Str → Option Str} {f : Str} {files : List Str} {out : List Src}
      {name : Str} {ls : List Str} :
      Expands fs f out → ListingName f name → List.Forall₂ ListingLine out ls →
      fs1 name = some (ls.flatMap fun l => l ++ ['\n']) → (∀ g, g ≠ name → fs1 g = fs g) →
      Listed fs1 files fs' → Listed fs (f :: files) fs'

/-- A decimal numeral, with or without leading zeros, and its value. -/
def Decimal (s : Str) (n : Nat) : Prop :=
  s ≠ [] ∧ (∀ c ∈ s, '0'.toNat ≤ c.toNat ∧ c.toNat ≤ '9'.toNat) ∧
    ofDigits 10 (s.map fun c => c.toNat - '0'.toNat) = n

/-- A decimal numeral with a minus sign for negative numbers. -/
def Signed (s : Str) (n : Int) : Prop :=
  (0 ≤ n ∧ Decimal s n.toNat) ∨ (n < 0 ∧ ∃ t, s = '-' :: t ∧ Decimal t n.natAbs)

/-- The line shows the number, and nothing else but blanks. -/
def Shows (l : Str) (n : Int) : Prop :=
  ∃ i j s, l = List.replicate i ' ' ++ s ++ List.replicate j ' ' ∧ Signed s n

/-- An optional argument: its value, or the default if it is left out. -/
def OptArg (args : List Str) (i : Nat) (default v : Int) : Prop :=
  (args[i]? = none ∧ v = default) ∨ ∃ s, args[i]? = some s ∧ Signed s v

/-- The text starts with `p`. -/
def Begins (p s : Str) : Prop := ∃ r, s = p ++ r

/-- A comment giving the range of pages, or a single page. -/
def PageSpan (line : Str) (a b : Nat) : Prop :=
  ∃ rest w, line = py "# Pages: " ++ rest ∧ Word1 rest w ∧
    ((∃ x y, Decimal x a ∧ Decimal y b ∧ w = x ++ '-' :: y) ∨ (Decimal w a ∧ b = a))

/-- The last page comment gives the range `a` to `b`; those before it are well-formed. -/
def PagesAre (lines : List Str) (a b : Nat) : Prop :=
  ∃ pre line post, lines = pre ++ line :: post ∧ PageSpan line a b ∧
    (∀ l ∈ post, ¬ Begins (py "# Pages: ") l) ∧
    ∀ l ∈ pre, Begins (py "# Pages: ") l → ∃ a b, PageSpan l a b

/-- `line` is the first log card. -/
def LogCard (lines : List Str) (line : Str) : Prop :=
  ∃ pre post, lines = pre ++ line :: post ∧ line.head? = some 'L' ∧ ∀ l ∈ pre, l.head? ≠ some 'L'

/-- The first file name comment gives this file name. -/
def FileComment (lines : List Str) (name : Str) : Prop :=
  ∃ pre post rest, lines = pre ++ (py "# Filename: " ++ rest) :: post ∧
    (∀ l ∈ pre, ¬ Begins (py "# Filename: ") l) ∧ Word1 rest name

/-- The log section and the text put in column 8: those of the first log card ("None" for a blank
column 8); if there is no log card the name in the first file name comment up to its first dot, with
blanks for underscores, and "@". -/
def LogName (lines : List Str) (sec c8 : Str) : Prop :=
  (∃ line, LogCard lines line ∧ Stripped (columns (line.filter (· ≠ '\n')) 9 82) sec ∧
    ((Blank (columns line 8 9) ∧ c8 = py "None") ∨
      (c8 ≠ [] ∧ Stripped (columns line 8 9) c8))) ∨
  ((∀ l ∈ lines, l.head? ≠ some 'L') ∧ c8 = py "@" ∧ ∃ name p, FileComment lines name ∧
    BeforeFirst '.' name p ∧ sec = p.map fun c => if c = '_' then ' ' else c)

/-- The block for one page: its number, and the log section with the user's page number. -/
def PageBlock (sec c8 : Str) (page user : Nat) (t : Str) : Prop :=
  ∃ s u, LeftIn 72 sec s ∧ RightIn 4 (numeral 10 user) u ∧
    t = py "\n# Page " ++ numeral 10 page ++ py "\n#      " ++ c8 ++ s ++
      py " USER'S OWN PAGE NO." ++ u ++ py "        PAGE" ++ u ++ py "\n\n"

end H800.Spec
