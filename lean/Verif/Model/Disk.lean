import Verif.Model.Verbose
import Verif.Model.Newlines

/-!
The tools on what is on the disk: files of bytes, files that may not be opened, and directories. The rest
of the model reads texts (`FileSystem`), and takes everything else for missing. Names with a null
character are taken for missing as well (`os.path.isfile` of Python before 3.8 raises ValueError).
The encoding of the locale is UTF-8. What is printed is modelled as in `Model/Verbose`.
-/

namespace H800

/-- What is at a path, apart from nothing. -/
inductive Node where
  /-- a file that may be read and written -/
  | file (bytes : List UInt8)
  /-- a file that may be neither read nor written -/
  | locked
  /-- a directory -/
  | dir
  deriving DecidableEq, Repr

/-- The nodes of the disk by their paths. -/
abbrev Disk := Str → Option Node

/-- How a tool stops otherwise than by reaching its end. -/
inductive Stop where
  /-- an exception that is modelled elsewhere, or `parser.error` -/
  | raised (e : PyErr)
  /-- `sys.exit(text)` -/
  | exit (text : Str)
  /-- UnicodeDecodeError -/
  | decode
  /-- PermissionError -/
  | denied
  /-- IsADirectoryError -/
  | isDir
  deriving DecidableEq, Repr

/-! ### UTF-8 -/

/-- A continuation byte. -/
def isCont (b : UInt8) : Bool := 0x80 ≤ b.toNat && b.toNat < 0xC0

/-- The strict UTF-8 decoder of CPython (`Objects/stringlib/codecs.h`, `utf8_decode`); `none` is
UnicodeDecodeError. -/
def utf8Decode : List UInt8 → Option Str
  | [] => some []
  | a :: rest =>
    if a.toNat < 0x80 then (utf8Decode rest).map (Char.ofNat a.toNat :: ·)
    else if a.toNat < 0xC2 then none
    else
      match rest with
      | [] => none
      | b :: rest =>
        if !isCont b then none
        else if a.toNat < 0xE0 then
          (utf8Decode rest).map (Char.ofNat ((a.toNat - 0xC0) * 64 + (b.toNat - 0x80)) :: ·)
        else
          match rest with
          | [] => none
          | c :: rest =>
            if !isCont c then none
            else if a.toNat < 0xF0 then
              if a.toNat = 0xE0 ∧ b.toNat < 0xA0 then none
              else if a.toNat = 0xED ∧ 0xA0 ≤ b.toNat then none
              else
                (utf8Decode rest).map (Char.ofNat
                  ((a.toNat - 0xE0) * 4096 + (b.toNat - 0x80) * 64 + (c.toNat - 0x80)) :: ·)
            else
              match rest with
              | [] => none
              | d :: rest =>
                if !isCont d then none
                else if a.toNat ≥ 0xF5 then none
                else if a.toNat = 0xF0 ∧ b.toNat < 0x90 then none
                else if a.toNat = 0xF4 ∧ 0x90 ≤ b.toNat then none
                else
                  (utf8Decode rest).map (Char.ofNat
                    ((a.toNat - 0xF0) * 262144 + (b.toNat - 0x80) * 4096 + (c.toNat - 0x80) * 64 +
                      (d.toNat - 0x80)) :: ·)

/-- The UTF-8 encoder of CPython (`utf8_encoder`). The characters of the model are no surrogates, so it
does not fail. -/
def utf8Encode : Str → List UInt8
  | [] => []
  | c :: s =>
    let v := c.toNat
    (if v < 0x80 then [v.toUInt8]
    else if v < 0x800 then [(0xC0 + v / 64).toUInt8, (0x80 + v % 64).toUInt8]
    else if v < 0x10000 then
      [(0xE0 + v / 4096).toUInt8, (0x80 + v / 64 % 64).toUInt8, (0x80 + v % 64).toUInt8]
    else
      [(0xF0 + v / 262144).toUInt8, (0x80 + v / 4096 % 64).toUInt8, (0x80 + v / 64 % 64).toUInt8,
        (0x80 + v % 64).toUInt8]) ++ utf8Encode s

/-! ### Reading -/

/-- `os.path.isfile`: false for directories. -/
def isFile (disk : Disk) (name : Str) : Bool :=
  match disk name with
  | some (.file _) | some .locked => true
  | _ => false

/-- punchcard.py 194-219: the loop of `_readSource` over the lines of one file, with what it prints, for
the cards of arguscard.py. `read` is the recursive call. -/
def readLoopD {α : Type} (verbose : Bool) (disk : Disk)
    (read : Str → List (VMsg α) × Except Stop (List PunchCard)) (filename : Str) :
    Nat → List Str → List (VMsg α) × Except Stop (List PunchCard)
  | _, [] => ([], .ok [])
  | i, line :: rest =>
    if startsWith line '#' then
      match readLoopD verbose disk read filename (i + 1) rest with
      | (out, r) => ((if verbose then [.meta_ filename (i + 1)] else []) ++ out, r)
    else if startsWith line '$' then
      match firstWord (line.drop 1) with
      | .error e => ([], .error (.raised e))
      | .ok inc =>
        if !isFile disk inc then
          ([], .error (.exit (py "File \"" ++ inc ++ py "\" does not exist")))
        else
          match read inc with
          | (out, .error e) => (out, .error e)
          | (out, .ok icards) =>
            match readLoopD verbose disk read filename (i + 1) rest with
            | (out', .error e) => (out ++ out', .error e)
            | (out', .ok cards) => (out ++ out', .ok (icards ++ cards))
    else
      match argusClass line DEFAULT_WIDTH DEFAULT_FIELDS (some filename) (i + 1) with
      | .error e => ([], .error (.raised e))
      | .ok c =>
        match readLoopD verbose disk read filename (i + 1) rest with
        | (out, .error e) => (out, .error e)
        | (out, .ok cards) => (out, .ok (c :: cards))

/-- punchcard.py 183-219: `_readSource`. The file is opened (190) before `Reading` is printed (192), and
decoded after it (193). -/
def readSourceD {α : Type} (verbose : Bool) (disk : Disk) :
    Nat → Str → List (VMsg α) × Except Stop (List PunchCard)
  | 0, _ => ([], .error (.raised .recursionError))
  | fuel + 1, filename =>
    if !isFile disk filename then
      ([], .error (.exit (py "ERROR: File \"" ++ filename ++ py "\" does not exist!")))
    else
      match disk filename with
      | some (.file bytes) =>
        match utf8Decode bytes with
        | none => (if verbose then [.reading filename] else [], .error .decode)
        | some chars =>
          match readLoopD verbose disk (readSourceD verbose disk fuel) filename 0
              (readlines (universal chars)) with
          | (out, r) => ((if verbose then [.reading filename] else []) ++ out, r)
      | _ => ([], .error .denied)

/-- `Deck(file=filename, verbose=verbose)` (punchcard.py 126-155, arguscard.py 121-132) with the
properties of its cards read, as `deckCardsV`. -/
def deckCardsD {α : Type} (verbose : Bool) (disk : Disk) (fuel : Nat) (filename : Str) :
    List (VMsg α) × Except Stop (List CodeCard) :=
  match filename with
  | [] => ([], .error (.raised .typeError))
  | c :: cs =>
    match readSourceD verbose disk fuel (c :: cs) with
    | (out, .error e) => (out, .error e)
    | (out, .ok cards) =>
      (out,
        match (show Py (List CodeCard) from do
          let d ← Deck.collect (cards.map fun c => c.line) cards
          let _ ← ArgusDeck.findLog d.cards
          d.cards.mapM codeCard) with
        | .ok l => .ok l
        | .error e => .error (.raised e))

/-! ### check-instructions.py and list-instructions.py -/

/-- check-instructions.py 71-100: the loop over the files. -/
def checkFilesD (verbose : Bool) (disk : Disk) (fuel : Nat) (opts : CheckOpts) :
    List Str → CheckStateV → CheckStateV × Except Stop Unit
  | [], st => (st, .ok ())
  | f :: files, st =>
    match deckCardsD verbose disk fuel f with
    | (out, .error e) => ({ st with out := st.out ++ out }, .error e)
    | (out, .ok cards) =>
      checkFilesD verbose disk fuel opts files
        (cards.foldl (checkStepV verbose opts) { st with out := st.out ++ out })

/-- check-instructions.py 57-130: `main`. -/
def checkInstructionsD (verbose : Bool) (disk : Disk) (fuel : Nat) (opts : CheckOpts)
    (args : List Str) : List (VMsg CheckMsg) × Except Stop Unit :=
  if args.length < 1 then ([], .error (.raised .systemExit))
  else
    match checkFilesD verbose disk fuel opts args CheckStateV.init with
    | (st, .error e) => (st.out, .error e)
    | (st, .ok ()) =>
      let s : CheckState := ⟨st.errcount, st.linecount, st.instrcount, st.instrtab, []⟩
      if opts.count then
        match freqLinesRun opts s.instrcount
            (if opts.sort then freqtab s.instrtab else byName s.instrtab) with
        | (l, .error e) =>
          (st.out ++ (.lines s.linecount :: .total s.instrcount :: l).map .msg, .error (.raised e))
        | (l, .ok ()) =>
          (st.out ++ (.lines s.linecount :: .total s.instrcount :: l ++ checkTail opts s).map .msg,
            .ok ())
      else (st.out ++ (checkTail opts s).map .msg, .ok ())

/-- list-instructions.py 42-62: the loop over the files. -/
def listFilesD (verbose : Bool) (disk : Disk) (fuel : Nat) (details : Bool) (opcode : Str) :
    List Str → List (VMsg Str) × Except Stop Unit
  | [] => ([], .ok ())
  | f :: files =>
    match deckCardsD verbose disk fuel f with
    | (out, .error e) => (out, .error e)
    | (out, .ok cards) =>
      match listFilesD verbose disk fuel details opcode files with
      | (l, r) => (out ++ cards.flatMap (listStepV verbose details opcode) ++ l, r)

/-- list-instructions.py 30-62: `main`. -/
def listInstructionsD (verbose : Bool) (disk : Disk) (fuel : Nat) (details : Bool)
    (args : List Str) : List (VMsg Str) × Except Stop Unit :=
  match args with
  | [] => ([], .error (.raised .systemExit))
  | opcode :: files =>
    let command := if opcode.contains ',' then splitFirst opcode ',' else opcode
    if ¬ INSTRUCTIONS.contains command then ([], .error (.raised .systemExit))
    else listFilesD verbose disk fuel details opcode files

/-! ### The symbol tools and parse.py -/

/-- symbol_table.py 178-300: `buildSymbolTable`. -/
def buildD (verbose : Bool) (upper : Str → Str) (disk : Disk) (fuel : Nat) (filename : Str)
    (symtab : Symtab) : List (VMsg SymMsg) × BuildState × Except Stop Unit :=
  match deckCardsD verbose disk fuel filename with
  | (out, .error e) => (out, ⟨symtab, py "1", 0, []⟩, .error e)
  | (out, .ok cards) =>
    match buildCardsRun upper (splitFirst filename '.') cards ⟨symtab, py "1", 0, []⟩ with
    | (b, .error e) => (out ++ b.diags.map fun d => .msg (.diag d), b, .error (.raised e))
    | (b, .ok _) => (out ++ b.diags.map fun d => .msg (.diag d), b, .ok ())

/-- check-symbols.py 35-42, find-symbols.py 63-70, list-symbols.py 30-36: the loop over the files. -/
def buildFilesD (verbose : Bool) (upper : Str → Str) (disk : Disk) (fuel : Nat)
    (announce : Bool) :
    List Str → Symtab → Nat → List (VMsg SymMsg) × Symtab × Nat × Except Stop Unit
  | [], symtab, toterrs => ([], symtab, toterrs, .ok ())
  | f :: files, symtab, toterrs =>
    match buildD verbose upper disk fuel f symtab with
    | (out, b, .error e) => (out, b.symtab, toterrs, .error e)
    | (out, b, .ok ()) =>
      match buildFilesD verbose upper disk fuel announce files b.symtab (toterrs + b.errcount) with
      | (out', r) =>
        (out ++ (if announce then [.msg (.fileErrs f b.errcount)] else []) ++ out', r)

/-- check-symbols.py 30-61: `main`. -/
def checkSymbolsD (verbose : Bool) (upper : Str → Str) (extract : Str → List Str → Nat → List Str)
    (disk : Disk) (fuel : Nat) (complex : Bool) (args : List Str) :
    List (VMsg SymMsg) × Except Stop Unit :=
  if args.length < 1 then ([], .error (.raised .systemExit))
  else
    match buildFilesD verbose upper disk fuel true args [] 0 with
    | (out, _, _, .error e) => (out, .error e)
    | (out, symtab, toterrs, .ok ()) =>
      let errSyms := checkSymbolTable symtab complex
      (out ++ (errSyms.map SymMsg.complexOnly ++ undefinedMsgs extract symtab errSyms ++
        (if args.length > 1 then [SymMsg.total (toterrs + errSyms.length)] else [])).map .msg, .ok ())

/-- find-symbols.py 54-75: `main`. -/
def findSymbolsD (verbose : Bool) (upper : Str → Str) (extract : Str → List Str → Nat → List Str)
    (disk : Disk) (fuel : Nat) (begin end_ fuzzy exact : Bool) (args : List Str) :
    List (VMsg SymMsg) × Except Stop Unit :=
  if (begin && exact) || (end_ && exact) || (begin && end_) ||
      (fuzzy && (begin || end_ || exact)) then ([], .error (.raised .systemExit))
  else
    match args with
    | [] => ([], .error (.raised .systemExit))
    | [_] => ([], .error (.raised .systemExit))
    | symbol :: files =>
      match buildFilesD verbose upper disk fuel true files [] 0 with
      | (out, _, _, .error e) => (out, .error e)
      | (out, symtab, _, .ok ()) =>
        match findSymbolDef extract symtab symbol none begin end_ fuzzy with
        | (r, n) =>
          (out ++ (List.replicate n (.undefined symbol) ++
            (match r with
            | .nothing => []
            | .names [] => []
            | .defs [] => []
            | r => [.found r])).map .msg, .ok ())

/-- list-symbols.py 25-54: `main`. -/
def listSymbolsD (verbose : Bool) (upper : Str → Str) (disk : Disk) (fuel : Nat)
    (args : List Str) : List (VMsg SymMsg) × Except Stop Unit :=
  if args.length < 1 then ([], .error (.raised .systemExit))
  else
    match buildFilesD verbose upper disk fuel false args [] 0 with
    | (out, _, _, .error e) => (out, .error e)
    | (out, symtab, errors, .ok ()) =>
      match tableLines symtab with
      | .error e => (out, .error (.raised e))
      | .ok l =>
        (out ++ (l.map SymMsg.listing ++
          (if errors > 0 then [SymMsg.listing (.errors errors)] else [])).map .msg, .ok ())

/-- parse.py 52-74: the loop over the decks. -/
def parseDecksD (verbose : Bool) (disk : Disk) (fuel : Nat) (debug : Bool) :
    List Str → Nat × Nat × List (VMsg ParseMsg) →
      (Nat × Nat × List (VMsg ParseMsg)) × Except Stop Unit
  | [], st => (st, .ok ())
  | f :: files, (linecount, errcount, out) =>
    match deckCardsD verbose disk fuel f with
    | (out', .error e) => ((linecount, errcount, out ++ out'), .error e)
    | (out', .ok cards) =>
      parseDecksD verbose disk fuel debug files
        (cards.foldl (parseStepV verbose debug) (linecount, errcount, out ++ out'))

/-- parse.py 46-50: the loop building the symbol table; `errcount` is overwritten. -/
def parseSymbolsD (verbose : Bool) (upper : Str → Str) (disk : Disk) (fuel : Nat) :
    List Str → Symtab → Nat → List (VMsg SymMsg) × Nat × Except Stop Unit
  | [], _, errcount => ([], errcount, .ok ())
  | f :: files, symtab, errcount =>
    match buildD verbose upper disk fuel f symtab with
    | (out, _, .error e) => (out, errcount, .error e)
    | (out, b, .ok ()) =>
      match parseSymbolsD verbose upper disk fuel files b.symtab b.errcount with
      | (out', r) => (out ++ [.msg (.fileErrs f b.errcount)] ++ out', r)

/-- parse.py 32-81: `main`. -/
def parseD (verbose : Bool) (upper : Str → Str) (disk : Disk) (fuel : Nat) (debug : Bool)
    (args : List Str) : List (VMsg ParseMsg) × Except Stop Unit :=
  if args.length < 1 then ([], .error (.raised .systemExit))
  else
    match parseSymbolsD verbose upper disk fuel args [] 0 with
    | (out, _, .error e) => (out.map VMsg.inl, .error e)
    | (out, errcount, .ok ()) =>
      match parseDecksD verbose disk fuel debug args (0, errcount, []) with
      | ((_, _, out'), .error e) => (out.map VMsg.inl ++ out', .error e)
      | ((linecount, errcount, out'), .ok ()) =>
        (out.map VMsg.inl ++ out' ++
          [.msg (.inr (.lines linecount)), .msg (.inr (.errors errcount))], .ok ())

/-! ### listing.py and genpages.py -/

/-- `open(name, 'w')` and writing a text to it. -/
def writeD (disk : Disk) (name text : Str) : Disk × Except Stop Unit :=
  match disk name with
  | some .dir => (disk, .error .isDir)
  | some .locked => (disk, .error .denied)
  | _ => (fun f => if f = name then some (.file (utf8Encode text)) else disk f, .ok ())

/-- listing.py 30-49: the loop over the files, without `--verbose`. -/
def listingFilesD (fuel : Nat) (disk : Disk) : List Str → Disk × Except Stop Unit
  | [] => (disk, .ok ())
  | filename :: rest =>
    match deckCardsD (α := Empty) false disk fuel filename with
    | (_, .error e) => (disk, .error e)
    | (_, .ok cards) =>
      match writeD disk (listfileOf filename) (cards.flatMap deckLine) with
      | (disk', .error e) => (disk', .error e)
      | (disk', .ok _) => listingFilesD fuel disk' rest

/-- listing.py 25-49: `main`, without `--verbose`. -/
def listingD (disk : Disk) (fuel : Nat) (args : List Str) : Disk × Except Stop Unit :=
  if args.length < 1 then (disk, .error (.raised .systemExit))
  else listingFilesD fuel disk args

/-- genpages.py 21-79: `main`. `os.path.exists` (28) is true for directories. The deck (36) is made of
the lines and reads no file. -/
def genpagesD (disk : Disk) (fuel : Nat) (args : List Str) : Disk × Except Stop Unit :=
  match args with
  | [] => (disk, .error (.raised .systemExit))
  | filename :: _ =>
    match disk filename with
    | none => (disk, .error (.raised .systemExit))
    | some .dir => (disk, .error .isDir)
    | some .locked => (disk, .error .denied)
    | some (.file bytes) =>
      match utf8Decode bytes with
      | none => (disk, .error .decode)
      | some chars =>
        match pagesInfo (fun _ => none) fuel (readlines (universal chars)) with
        | .error e => (disk, .error (.raised e))
        | .ok st =>
          match st.section_ with
          | none => (disk, .error (.raised .systemExit))
          | some section_ =>
            match st.pages with
            | none => (disk, .error (.raised .unboundLocal))
            | some (start, end_) =>
              if start > end_ then (disk, .error (.raised .systemExit))
              else
                (fun f => if f = filename then
                    some (.file (bytes ++ utf8Encode (pagesLines st.col8 section_ start end_).flatten))
                  else disk f, .ok ())

end H800
