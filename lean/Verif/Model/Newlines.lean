import Verif.Model.Gen
import Verif.Model.Options

/-!
Model of what `open` does in text mode with the ends of lines: punchcard.py 190, assembler.py 25 and
genpages.py 33 open files with mode 'r', genpages.py 78 with mode 'a' and listing.py 42 with mode 'w'.
A `FileSystem` is used in two ways here: with the characters stored in the files, and with the texts
the program reads. Everywhere else in the model it has the latter meaning.
-/

namespace H800

/-- The text read from a file opened with mode 'r' and no argument `newline`: a carriage return with a
newline after it is not read, any other carriage return is read as a newline. -/
def universal : Str → Str
  | [] => []
  | c :: s =>
    if c = '\r' then (if s.head? = some '\n' then universal s else '\n' :: universal s)
    else c :: universal s

/-- The texts read from the stored files. -/
def textFiles (disk : FileSystem) : FileSystem := fun f => (disk f).map universal

/-- genpages.py 21-79: `main` on the stored files: the text read (32-34, `textFiles`) is as for
`genpages`, the lines are appended to what is stored (78-79). On POSIX systems newlines are stored as
they are. -/
def genpagesDisk (disk : FileSystem) (fuel : Nat) (args : List Str) : FileSystem × Py Unit :=
  match args with
  | [] => (disk, .error .systemExit)
  | filename :: _ =>
    match disk filename with
    | none => (disk, .error .systemExit)
    | some stored =>
      match pagesInfo (textFiles disk) fuel (readlines (universal stored)) with
      | .error e => (disk, .error e)
      | .ok st =>
        match st.section_ with
        | none => (disk, .error .systemExit)
        | some section_ =>
          match st.pages with
          | none => (disk, .error .unboundLocal)
          | some (start, end_) =>
            if start > end_ then (disk, .error .systemExit)
            else
              (writeFile disk filename
                (stored ++ (pagesLines st.col8 section_ start end_).flatten), .ok ())

/-- listing.py 30-49: the loop over the files on the stored files. -/
def listingFilesDisk (fuel : Nat) (disk : FileSystem) : List Str → FileSystem × Py Unit
  | [] => (disk, .ok ())
  | filename :: rest =>
    match deckCards (textFiles disk) fuel filename with
    | .error e => (disk, .error e)
    | .ok cards =>
      listingFilesDisk fuel (writeFile disk (listfileOf filename) (cards.flatMap deckLine)) rest

/-- listing.py 25-49: `main` on the stored files. -/
def listingDisk (disk : FileSystem) (fuel : Nat) (args : List Str) : FileSystem × Py Unit :=
  if args.length < 1 then (disk, .error .systemExit)
  else listingFilesDisk fuel disk args

end H800
