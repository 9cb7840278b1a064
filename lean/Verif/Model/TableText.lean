import Verif.Model.SymbolTable
import Verif.Model.Repr

/-!
The lines that the methods of `SymbolTable` in `h800/symbol_table.py` print, without their newlines, up to
the exception if there is one. `addr` gives the addresses of the entries.
-/

namespace H800

namespace SymbolTable

variable {ν : Type}

/-- symbol_table.py 88-98: what `add` prints. -/
def addLines (t : SymbolTable ν) (name : Str) : List Str :=
  if name = [] then []
  else if (dget t.symbols name).isSome then
    [py "ERROR: Symbol \"" ++ name ++ py "\" already defined!"]
  else []

/-- symbol_table.py 132-136: what the loop of `pruneUndefines` prints. -/
def pruneLoopLines (symbols : Dict Str (SymbolTableEntry ν)) (i : Nat) (undefs : List Str) : List Str :=
  if h : i < undefs.length then
    match dget symbols undefs[i] with
    | none => []
    | some entry =>
      if entry.isValid then
        (py "Removing " ++ undefs[i] ++ py " from undefined symbols list") ::
          pruneLoopLines symbols (i + 1) (undefs.eraseIdx i)
      else pruneLoopLines symbols (i + 1) undefs
  else []
  termination_by undefs.length - i
  decreasing_by
    · rw [List.length_eraseIdx]; split <;> omega
    · omega

/-- symbol_table.py 128-138: what `pruneUndefines` prints. -/
def pruneLines (t : SymbolTable ν) : List Str :=
  let numUndefs : Int := t.undefs.length
  (py "Pruning undefined symbols list (" ++ pyStr numUndefs ++ py " undefs)") ::
    pruneLoopLines t.symbols 0 t.undefs ++
    match t.pruneUndefines with
    | (_, .error _) => []
    | (t', .ok _) =>
      [py "Removed " ++ pyStr (numUndefs - t'.undefs.length) ++ py " symbols from undef list"]

/-- symbol_table.py 112-126: what `resolve` prints from pass `i` on. -/
def resolveLoopLines (t : SymbolTable ν) : Nat → Nat → Nat → Nat → List Str
  | 0, _, _, _ => []
  | passes + 1, i, prev, n =>
    (py "Symbol pass " ++ pyStr i ++ py ": " ++ pyStr n ++ py " undefined symbols") ::
    if n = 0 then [py "All symbols resolved!"]
    else
      t.undefs.map (fun symbol => py "Attempting to resolve symbol \"" ++ symbol ++ ['"']) ++
      t.pruneLines ++
      match t.pruneUndefines with
      | (_, .error _) => []
      | (t', .ok _) =>
        if t'.undefs.length = prev then
          [py "ERROR: No progress resolving symbols, " ++ pyStr t'.undefs.length ++
            py " undefined symbols"]
        else resolveLoopLines t' passes (i + 1) t'.undefs.length t'.undefs.length

/-- symbol_table.py 110-126: what `resolve` prints. -/
def resolveLines (t : SymbolTable ν) (maxPasses : Int) : List Str :=
  resolveLoopLines t maxPasses.toNat 0 t.undefs.length t.undefs.length

/-- `str` of an entry: the class has neither `__str__` nor `__repr__`, so that it is that of `object`. -/
def entryText (addr : SymbolTableEntry ν → Nat) (e : SymbolTableEntry ν) : Str :=
  py "<h800.symbol_table.SymbolTableEntry object at 0x" ++ (digits 16 (addr e)).map hexChar ++ ['>']

/-- symbol_table.py 160-161, 165-166, 174-175: the entries of a list of names, up to a name without
one. -/
def entryLines (addr : SymbolTableEntry ν → Nat) (t : SymbolTable ν) : List Str → List Str
  | [] => []
  | n :: names =>
    match dget t.symbols n with
    | none => []
    | some e => entryText addr e :: entryLines addr t names

/-- symbol_table.py 152-166: what `printTable` prints; the argument of the heading begins and ends with a
newline. If a name has no entry, nothing follows. -/
def printTableLines (addr : SymbolTableEntry ν → Nat) (t : SymbolTable ν) : List Str :=
  let names := pySortedStr (t.symbols.map (·.1))
  [[], py "Defined symbols:", []] ++ entryLines addr t names ++
    match t.printed names with
    | .error _ => []
    | .ok _ =>
      if t.undefs.length > 0 then [[], py "Undefined symbols:", []] ++ entryLines addr t t.undefs
      else []

/-- symbol_table.py 168-175: what `printUndefs` prints. -/
def printUndefsLines (addr : SymbolTableEntry ν → Nat) (t : SymbolTable ν) : List Str :=
  [[], py "Undefined symbols: " ++ pyStr t.undefs.length, []] ++ entryLines addr t t.undefs

end SymbolTable

end H800
