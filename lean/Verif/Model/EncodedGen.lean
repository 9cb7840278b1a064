import Verif.Model.Encoded
import Verif.Model.Gen

/-!
genpages.py and genlines.py with an encoding that may lack characters, as in Model/Encoded. genpages
reads and writes its file in the same encoding (32, 78).
-/

namespace H800

/-- genpages.py 79: `writelines`: lines that have their newlines; a line is written whole or not at
all. -/
def writeIn (enc : Char → Bool) : List Str → Str × Py Unit
  | [] => ([], .ok ())
  | l :: ls =>
    if l.all enc then
      match writeIn enc ls with
      | (o, r) => (l ++ o, r)
    else ([], .error .valueError)

/-- genpages.py 21-79: `main`: the file system left behind. When a line cannot be written, `with` closes
the file with the lines before. -/
def genpagesIn (enc : Char → Bool) (fs : FileSystem) (fuel : Nat) (args : List Str) :
    FileSystem × Py Unit :=
  match args with
  | [] => (fs, .error .systemExit)
  | filename :: _ =>
    match fs filename with
    | none => (fs, .error .systemExit)
    | some text =>
      match pagesInfo fs fuel (readlines text) with
      | .error e => (fs, .error e)
      | .ok st =>
        match st.section_ with
        | none => (fs, .error .systemExit)
        | some section_ =>
          match st.pages with
          | none => (fs, .error .unboundLocal)
          | some (start, end_) =>
            if start > end_ then (fs, .error .systemExit)
            else
              match writeIn enc (pagesLines st.col8 section_ start end_) with
              | (t, r) => (writeFile fs filename (text ++ t), r)

/-- genlines.py 28-76: what is printed, and how it ends. -/
def genlinesIn (enc : Char → Bool) (args : List Str) : Str × Py Unit :=
  match genlines args with
  | .error e => ([], .error e)
  | .ok lines => printIn enc lines (.ok ())

end H800
