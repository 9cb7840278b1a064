import Verif.Model.Symbols

/-!
Model of `h800/assembler.py` and `h800/context.py`.

As they stand neither can be used: `assembler.py` imports a module `parser_record` that is not part of
the project, and the constructor of `Context` uses a name that is not defined. The methods are
modelled for the case that the import succeeds, and on objects in any state. Attributes that may be
unset are `Option`s; reading an unset one is AttributeError. Logging is left out; so is `parse`, which
only logs, and `parseRecord`, which does nothing.
-/

namespace H800

/-- A `ParserRecord`: only the answers of its methods `isParseable` and `isComplete` matter here. They
are constant because `resolve` calls no other method (assembler.py 71, 73 are commented out). -/
structure PRecord where
  id : Nat
  parseable : Bool
  complete : Bool
  deriving DecidableEq, Repr

/-- The attributes of `self.context` read by `resolve`; an entry may be None. -/
structure AsmContext where
  records : List (Option PRecord)
  currentRecord : Option PRecord
  deriving DecidableEq, Repr

/-- assembler.py 12-94: the attributes of an `Assembler`. -/
structure Assembler where
  /-- `_symtab` -/
  symtab : Symtab
  /-- `_srcfile` -/
  srcfile : Option Str
  /-- `_linenum` -/
  linenum : Option Nat
  /-- `context`: never set by the class -/
  context : Option AsmContext
  /-- `_records`: never set by the class as a whole -/
  records : Option (List (Option PRecord))
  /-- `_errors`: never set by the class before it is increased -/
  errors : Option Nat
  /-- `_passnum` -/
  passnum : Option Nat
  /-- the records on which `error` was called (assembler.py 84) -/
  reported : List PRecord
  /-- the number of calls of `self.context.error` (assembler.py 86-88) -/
  contextErrors : Nat

namespace Assembler

/-- assembler.py 12-14: `Assembler()`. -/
def init : Assembler := ⟨[], none, none, none, none, none, none, [], 0⟩

/-- assembler.py 16-19: `createSymbolTable`. After an exception the table, which `buildSymbolTable`
changes in place, is left as before the call (C68_total: it fails only before the first change, unless
a segment is called `simple` or `complex`). -/
def createSymbolTable (upper : Str → Str) (fs : FileSystem) (fuel : Nat) (a : Assembler)
    (srcfile : Str) : Assembler × Py Unit :=
  match buildSymbolTable upper fs fuel srcfile a.symtab with
  | .ok b => ({ a with symtab := b.symtab }, .ok ())
  | .error e => (a, .error e)

/-- assembler.py 21-31: `assemble` reads the file and does nothing with its lines. -/
def assemble (fs : FileSystem) (a : Assembler) (srcfile : Str) : Assembler × Py Unit :=
  let a' := { a with srcfile := some srcfile, linenum := some 0 }
  match fs srcfile with
  | none => (a', .error .fileNotFound)
  | some _ => (a', .ok ())

/-- assembler.py 65-77: one pass over the records `j, j+1, ..., j+n-1`; `cur` is
`self.context.currentRecord`. Returns the records and the incomplete ones among those visited. -/
def pass (cur : Option PRecord) : Nat → Nat → List (Option PRecord) → List PRecord →
    List (Option PRecord) × Py (List PRecord)
  | _, 0, rs, undef => (rs, .ok undef)
  | j, n + 1, rs, undef =>
    match rs[j]? with
    | none => (rs, .error .indexError)
    | some none => (rs, .error .attributeError)
    | some (some r) =>
      if r.parseable then
        pass cur (j + 1) n (rs.set j cur) (if r.complete then undef else undef ++ [r])
      else pass cur (j + 1) n rs undef

/-- assembler.py 83-88: the report when there is no progress; `self._errors` must be set. -/
def noProgress (a : Assembler) : List PRecord → Assembler × Py Unit
  | [] => ({ a with contextErrors := a.contextErrors + 1 }, .ok ())
  | r :: rs =>
    match a.errors with
    | none => ({ a with reported := a.reported ++ [r] }, .error .attributeError)
    | some n => noProgress { a with reported := a.reported ++ [r], errors := some (n + 1) } rs

/-- assembler.py 60-89: the loop over the passes, `n` of them left, `i` done; `prev` is the number of
incomplete records of the last pass. -/
def passes (ctx : AsmContext) : Nat → Nat → Nat → Assembler → Assembler × Py Unit
  | 0, _, _, a => (a, .ok ())
  | n + 1, i, prev, a =>
    let a := { a with passnum := some (i + 1) }
    match ctx.records.length, a.records with
    | 0, _ => (a, .ok ())
    | _ + 1, none => (a, .error .attributeError)
    | k + 1, some rs =>
      match pass ctx.currentRecord 0 (k + 1) rs [] with
      | (rs', .error e) => ({ a with records := some rs' }, .error e)
      | (rs', .ok undef) =>
        let a := { a with records := some rs' }
        if undef.length = 0 then (a, .ok ())
        else if undef.length = prev then noProgress a undef
        else passes ctx n (i + 1) undef.length a

/-- assembler.py 49-94: `resolve`. -/
def resolve (a : Assembler) (maxPasses : Nat) : Assembler × Py Unit :=
  match a.context with
  | none => (a, .error .attributeError)
  | some ctx => passes ctx maxPasses 0 0 a

end Assembler

/-- The calls a client can make. -/
inductive AsmOp where
  | symbols (file : Str)
  | assemble (file : Str)
  | resolve (maxPasses : Nat)

/-- One call; an exception is caught by the client. -/
def AsmOp.run (upper : Str → Str) (fs : FileSystem) (fuel : Nat) (a : Assembler) : AsmOp → Assembler
  | .symbols f => (a.createSymbolTable upper fs fuel f).1
  | .assemble f => (a.assemble fs f).1
  | .resolve n => (a.resolve n).1

/-- context.py 112-132: the attributes of a record read and written by `load` and `save`. -/
structure CtxRecord where
  linenum : Int
  globalLinenum : Int
  code : List Int
  srcline : Option Str
  loc : Int
  bank : Int
  coloc : Int
  errorMsg : Option Str
  warningMsg : Option Str
  deriving DecidableEq, Repr

/-- context.py 28-71: the attributes of a `Context` used by its methods. `coloc` is set by `load`
only; `memmap`, `log` and `error` are set nowhere. -/
structure Context where
  linenum : Int
  globalLinenum : Int
  code : List Int
  srcline : Option Str
  currentRecord : Option Nat
  previousRecord : Option Nat
  addSymbol : Bool
  reparse : Bool
  passnum : Int
  loc : Int
  bank : Int
  coloc : Option Int
  errorMsg : Option Str
  warningMsg : Option Str
  errors : Int
  warnings : Int
  deriving DecidableEq, Repr

/-- context.py 19-23: the names the module defines or imports (all imports are comments). -/
def contextNames : List Str := [py "Context"]

namespace Context

/-- context.py 27-71: the constructor. The `options` have the attributes `verbose` and `debug`
(28-30). Then the global name `SymbolTable` (37) is looked up; were it defined, the object would be the
one given. -/
def init : Py Context :=
  if py "SymbolTable" ∈ contextNames then
    .ok ⟨0, 0, [], none, none, none, true, false, 0, 0, 0, none, none, none, 0, 0⟩
  else .error .nameError

/-- context.py 100-110: `reset`. -/
def reset (c : Context) : Context :=
  { c with linenum := 0, globalLinenum := 0, code := [], srcline := none, currentRecord := none,
           previousRecord := none, addSymbol := true, reparse := false, loc := 0, bank := 0 }

/-- context.py 112-121: `load`. -/
def load (c : Context) (r : CtxRecord) : Context :=
  { c with linenum := r.linenum, globalLinenum := r.globalLinenum, code := r.code,
           srcline := r.srcline, loc := r.loc, bank := r.bank, coloc := some r.coloc,
           errorMsg := r.errorMsg, warningMsg := r.warningMsg }

/-- context.py 123-132: `save` writes the attributes one by one; `self.coloc` (129) may be unset. -/
def save (c : Context) (r : CtxRecord) : CtxRecord × Py Unit :=
  let r := { r with linenum := c.linenum, globalLinenum := c.globalLinenum, code := c.code,
                    srcline := c.srcline, loc := c.loc }
  match c.coloc with
  | none => (r, .error .attributeError)
  | some x =>
    ({ r with coloc := x, bank := c.bank, errorMsg := c.errorMsg, warningMsg := c.warningMsg },
      .ok ())

/-- context.py 134-139: `setLoc`. The class sets no `memmap`, `error` or `log`; `memmap` is the
`isValid` method of a `memmap` attribute set by someone else. -/
def setLoc (c : Context) (memmap : Option (Int → Bool)) (address : Int) : Context × Py Unit :=
  match memmap with
  | none => (c, .error .attributeError)
  | some isValid =>
    if ¬ isValid address then (c, .error .attributeError)
    else if ¬ c.reparse then (c, .error .attributeError)
    else (c, .ok ())

/-- context.py 141-146: `setCoLoc`, as `setLoc`. -/
def setCoLoc (c : Context) (memmap : Option (Int → Bool)) (address : Int) : Context × Py Unit :=
  match memmap with
  | none => (c, .error .attributeError)
  | some isValid =>
    if ¬ isValid address then (c, .error .attributeError)
    else if ¬ c.reparse then (c, .error .attributeError)
    else (c, .ok ())

/-- context.py 73-98: `__str__`. The lines 75-85 cannot fail; line 86 looks up the global name
`RecordType`. Were it defined, the text would go on with the attributes of the current record; that
text is not modelled. -/
def str (_ : Context) : Py Str :=
  if py "RecordType" ∈ contextNames then .ok [] else .error .nameError

end Context

end H800
