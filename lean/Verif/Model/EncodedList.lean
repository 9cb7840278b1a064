import Verif.Model.Encoded

/-!
`tools/listing.py` with encodings of the standard output and of the listing files that may lack
characters. As in Model/Encoded a line is written whole or not at all. Reading does not fail for
characters here: the files are texts.
-/

namespace H800

/-- The messages of listing.py (48-49, and those of reading) on the standard output. -/
def listingMsgText : VMsg Empty → List Str := VMsg.text fun e => nomatch e

/-- listing.py 42-46: the line of a card, without its newline. -/
def deckLineText (card : CodeCard) : Str :=
  padRight 64 (card.file.getD (py "None")) ++ ' ' :: padRight 6 (pyStr card.line) ++
    ' ' :: remove card.text '\n'

/-- listing.py 30-49: the loop over the files: the file system left behind, what is printed, and how it
ends. `encOut` are the characters of the standard output, `encFile` those of the listings. A listing is
opened, and so emptied, before its first line is written; when a line cannot be written, `with` closes
it with the lines before. -/
def listingFilesIn (encOut encFile : Char → Bool) (verbose : Bool) (fuel : Nat) (fs : FileSystem) :
    List Str → FileSystem × Str × Py Unit
  | [] => (fs, [], .ok ())
  | filename :: rest =>
    match deckCardsV verbose fs fuel filename with
    | (out, .error e) =>
      match printIn encOut (out.flatMap listingMsgText) (.error e) with
      | (o, r) => (fs, o, r)
    | (out, .ok cards) =>
      match printIn encOut (out.flatMap listingMsgText) (.ok ()) with
      | (o, .error e) => (fs, o, .error e)
      | (o, .ok ()) =>
        match printIn encFile (cards.map deckLineText) (.ok ()) with
        | (t, .error e) => (writeFile fs (listfileOf filename) t, o, .error e)
        | (t, .ok ()) =>
          match printIn encOut
            (if verbose then listingMsgText (.wrote (listfileOf filename)) else []) (.ok ()) with
          | (w, .error e) => (writeFile fs (listfileOf filename) t, o ++ w, .error e)
          | (w, .ok ()) =>
            match listingFilesIn encOut encFile verbose fuel
              (writeFile fs (listfileOf filename) t) rest with
            | (fs', o', r) => (fs', o ++ w ++ o', r)

/-- listing.py 25-49: `main`. -/
def listingIn (encOut encFile : Char → Bool) (verbose : Bool) (fs : FileSystem) (fuel : Nat)
    (args : List Str) : FileSystem × Str × Py Unit :=
  if args.length < 1 then (fs, [], .error .systemExit)
  else listingFilesIn encOut encFile verbose fuel fs args

end H800
