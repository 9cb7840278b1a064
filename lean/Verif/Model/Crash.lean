import Verif.Model.Disk

/-!
What `tools/listing.py` and `tools/genpages.py` do to the disk, step by step, for runs that do not get to
their end: the process is killed, or a write fails (the disk is full). The operating system keeps what was
written, in the order in which it was written. How many bytes are passed to it at a time depends on the
buffers of Python, so that a run can be cut off after any byte. The other tools write no files.
-/

namespace H800

/-- A change of the disk. -/
inductive Effect where
  /-- `open(name, 'w')`: the file is there and empty -/
  | truncate (name : Str)
  /-- one more byte at the end of a file -/
  | append (name : Str) (byte : UInt8)
  deriving DecidableEq, Repr

/-- The disk after a change. -/
def Effect.run (disk : Disk) : Effect → Disk
  | .truncate name => fun f => if f = name then some (.file []) else disk f
  | .append name byte => fun f =>
    if f = name then
      match disk f with
      | some (.file bytes) => some (.file (bytes ++ [byte]))
      | node => node
    else disk f

/-- `open(name, 'w')` and writing a text to it (listing.py 42-46). -/
def writeE (disk : Disk) (name text : Str) : List Effect × Except Stop Unit :=
  match disk name with
  | some .dir => ([], .error .isDir)
  | some .locked => ([], .error .denied)
  | _ => (.truncate name :: (utf8Encode text).map (.append name), .ok ())

/-- listing.py 30-49: the loop over the files, without `--verbose`. A listing is closed (46) before the
next file is read. -/
def listingFilesE (fuel : Nat) (disk : Disk) : List Str → List Effect × Except Stop Unit
  | [] => ([], .ok ())
  | filename :: rest =>
    match deckCardsD (α := Empty) false disk fuel filename with
    | (_, .error e) => ([], .error e)
    | (_, .ok cards) =>
      match writeE disk (listfileOf filename) (cards.flatMap deckLine) with
      | (effects, .error e) => (effects, .error e)
      | (effects, .ok _) =>
        match listingFilesE fuel (effects.foldl Effect.run disk) rest with
        | (effects', r) => (effects ++ effects', r)

/-- listing.py 25-49: `main`, without `--verbose`. -/
def listingE (disk : Disk) (fuel : Nat) (args : List Str) : List Effect × Except Stop Unit :=
  if args.length < 1 then ([], .error (.raised .systemExit))
  else listingFilesE fuel disk args

/-- genpages.py 21-79: `main`. The file is opened with mode 'a' (78), which changes nothing. -/
def genpagesE (disk : Disk) (fuel : Nat) (args : List Str) : List Effect × Except Stop Unit :=
  match args with
  | [] => ([], .error (.raised .systemExit))
  | filename :: _ =>
    match disk filename with
    | none => ([], .error (.raised .systemExit))
    | some .dir => ([], .error .isDir)
    | some .locked => ([], .error .denied)
    | some (.file bytes) =>
      match utf8Decode bytes with
      | none => ([], .error .decode)
      | some chars =>
        match pagesInfo (fun _ => none) fuel (readlines (universal chars)) with
        | .error e => ([], .error (.raised e))
        | .ok st =>
          match st.section_ with
          | none => ([], .error (.raised .systemExit))
          | some section_ =>
            match st.pages with
            | none => ([], .error (.raised .unboundLocal))
            | some (start, end_) =>
              if start > end_ then ([], .error (.raised .systemExit))
              else
                ((utf8Encode (pagesLines st.col8 section_ start end_).flatten).map
                  (.append filename), .ok ())

end H800
