import Mathlib.Data.Int.Bitwise
import Lean.Parser.Term

/-!
The fragment of Python the model is written in: exceptions as values, unbounded integers with
two's-complement bit operations, strings as lists of characters, slices, `strip`, `split`,
insertion-ordered dictionaries and `sorted`.
-/

namespace H800

/-- The exceptions the modelled code can raise; their texts are in `Verif/Model/Messages.lean`. -/
inductive PyErr where
  | valueError | keyError | typeError | indexError | attributeError | nameError
  | zeroDivision | systemExit | recursionError | unboundLocal | fileNotFound | overflowError
  deriving DecidableEq, Repr

/-- A Python computation without observable state: a value or an exception. -/
abbrev Py (α : Type) := Except PyErr α

deriving instance DecidableEq for Except

/-- Python `x << n` on ints: `x * 2**n`, ValueError for a negative count. -/
def shl (x n : Int) : Py Int := if n < 0 then .error .valueError else .ok (x * 2 ^ n.toNat)

/-- Python `x >> n` on ints: floor division by `2**n`, ValueError for a negative count. -/
def shr (x n : Int) : Py Int := if n < 0 then .error .valueError else .ok (x / 2 ^ n.toNat)

/-- Python `2 ** n` for `n >= 0` (a negative exponent would give a float; callers note why it
cannot occur). -/
def pow2 (n : Int) : Int := 2 ^ n.toNat

/-- Digits of `n` in base `b`, most significant first; `fuel` bounds the number of digits. -/
def digitsAux (b : Nat) : Nat → Nat → List Nat
  | 0, _ => []
  | fuel + 1, n => if n < b then [n] else digitsAux b fuel (n / b) ++ [n % b]

/-- Digits of `n` in base `b >= 2`, most significant first, no leading zeros (`[0]` for 0). -/
def digits (b n : Nat) : List Nat := digitsAux b (n.log2 + 1) n

/-- A Python string, as its list of code points. -/
abbrev Str := List Char

/-- The character of a digit below 10. -/
def digitChar (d : Nat) : Char := Char.ofNat ('0'.toNat + d)

/-- Python `str(n)`, `'%o' % n`, `bin(n)[2:]` for `n >= 0`: the numeral in base `b <= 10`. -/
def numeral (b n : Nat) : Str := (digits b n).map digitChar

/-- Pad a string on the left with `c` to at least `w` characters. -/
def padLeft (c : Char) (w : Nat) (s : Str) : Str := List.replicate (w - s.length) c ++ s

/-- `py "abc"` is the Python string literal, expanded to a list of characters at elaboration time
so that it evaluates in the kernel. -/
syntax "py" str : term

macro_rules
  | `(py $s:str) => do
    let cs : Array (Lean.TSyntax `term) :=
      s.getString.toList.toArray.map fun c => ⟨Lean.Syntax.mkCharLit c⟩
    `(([$cs,*] : Str))

/-- A Python `dict` in insertion order. -/
abbrev Dict (κ ν : Type) := List (κ × ν)

/-- `d.get(k)`; membership is `isSome`. -/
def dget {κ ν : Type} [DecidableEq κ] : Dict κ ν → κ → Option ν
  | [], _ => none
  | (k', v) :: d, k => if k' = k then some v else dget d k

/-- `d[k]`: KeyError when absent. -/
def dgetE {κ ν : Type} [DecidableEq κ] (d : Dict κ ν) (k : κ) : Py ν :=
  match dget d k with
  | some v => .ok v
  | none => .error .keyError

/-- `d[k] = v`: an existing key keeps its position, a new one goes last. -/
def dset {κ ν : Type} [DecidableEq κ] : Dict κ ν → κ → ν → Dict κ ν
  | [], k, v => [(k, v)]
  | (k', v') :: d, k, v => if k' = k then (k', v) :: d else (k', v') :: dset d k v

/-- Python `range(start, stop)` as a list. -/
def pyRange (start stop : Int) : List Int :=
  (List.range (stop - start).toNat).map fun (i : Nat) => start + i

/-- Insert `x` before the first element it is `le`. -/
def insertBy {α : Type} (le : α → α → Bool) (x : α) : List α → List α
  | [] => [x]
  | y :: l => if le x y then x :: y :: l else y :: insertBy le x l

/-- Python `sorted(l)` (stable) for the order `le`. -/
def pySorted {α : Type} (le : α → α → Bool) : List α → List α
  | [] => []
  | x :: l => insertBy le x (pySorted le l)

/-- `sorted` on ints. -/
def pySortedInt (l : List Int) : List Int := pySorted (fun a b => decide (a ≤ b)) l

/-- Python `a <= b` on strings: lexicographic by code point. -/
def strLe : Str → Str → Bool
  | [], _ => true
  | _ :: _, [] => false
  | a :: s, b :: t => if a = b then strLe s t else decide (a.toNat ≤ b.toNat)

/-- `sorted` on strings. -/
def pySortedStr (l : List Str) : List Str := pySorted strLe l

/-- `str.isspace` of one character: the white space removed by `strip()` and separating words in
`split()`. -/
def isSpace (c : Char) : Bool :=
  let n := c.toNat
  (9 ≤ n && n ≤ 13) || (28 ≤ n && n ≤ 32) || n = 0x85 || n = 0xA0 || n = 0x1680 ||
    (0x2000 ≤ n && n ≤ 0x200A) || n = 0x2028 || n = 0x2029 || n = 0x202F || n = 0x205F || n = 0x3000

/-- `s.strip()`. -/
def strip (s : Str) : Str := ((s.dropWhile isSpace).reverse.dropWhile isSpace).reverse

/-- `s.split()[0]`: IndexError when there is no word. -/
def firstWord (s : Str) : Py Str :=
  match (s.dropWhile isSpace).takeWhile (fun c => !isSpace c) with
  | [] => .error .indexError
  | w => .ok w

/-- `s.startswith(c)` for a single character. -/
def startsWith (s : Str) (c : Char) : Bool :=
  match s with
  | [] => false
  | x :: _ => x = c

/-- `s.replace(c, '')` for a single character. -/
def remove (s : Str) (c : Char) : Str := s.filter (fun x => x ≠ c)

/-- `s.split(c)[0]` for a single character. -/
def splitFirst (s : Str) (c : Char) : Str := s.takeWhile (fun x => x ≠ c)

/-- `s.split(c)` for a single character. -/
def pySplit (c : Char) : Str → List Str
  | [] => [[]]
  | x :: s =>
    if x = c then [] :: pySplit c s
    else match pySplit c s with
      | [] => [[x]]
      | p :: ps => (x :: p) :: ps

/-- `l[i]` for `i >= 0`: IndexError beyond the end. -/
def getE {α : Type} (l : List α) (i : Nat) : Py α :=
  match l[i]? with
  | some x => .ok x
  | none => .error .indexError

/-- `s.startswith(p)`. -/
def hasPrefix (p s : Str) : Bool := p.isPrefixOf s

/-- `s.endswith(p)`. -/
def hasSuffix (p s : Str) : Bool := p.isSuffixOf s

/-- A slice bound: a negative index counts from the end; bounds are clamped to the sequence. -/
def sliceBound (n : Nat) (i : Int) : Nat := min (if i < 0 then i + n else i).toNat n

/-- `s[a:b]`. -/
def slice {α : Type} (s : List α) (a b : Int) : List α :=
  (s.drop (sliceBound s.length a)).take (sliceBound s.length b - sliceBound s.length a)

/-- `s[a:]`. -/
def sliceFrom {α : Type} (s : List α) (a : Int) : List α := s.drop (sliceBound s.length a)

/-- `sep.join(lines)` for a single character. -/
def joinWith (c : Char) : List Str → Str
  | [] => []
  | [l] => l
  | l :: m :: ls => l ++ c :: joinWith c (m :: ls)

/-- `f.readlines()` on the text of a file (after newline translation): each line keeps its final
newline, the last one may have none. -/
def readlines : Str → List Str
  | [] => []
  | c :: s =>
    if c = '\n' then [c] :: readlines s
    else match readlines s with
      | [] => [[c]]
      | l :: ls => (c :: l) :: ls

/-- Binding of a call with `npos` positional arguments and keyword arguments `kws` to a function
with parameters `params` (name, has a default): TypeError for too many positional arguments, an
unknown keyword, a parameter given twice, or a required parameter missing. -/
def bindCall (params : List (Str × Bool)) (npos : Nat) (kws : List Str) : Py Unit :=
  if npos > params.length then .error .typeError
  else if ¬ kws.all (fun k => (params.drop npos).any (fun p => p.1 = k)) then .error .typeError
  else if (params.drop npos).all (fun p => p.2 || kws.contains p.1) then .ok ()
  else .error .typeError

end H800
