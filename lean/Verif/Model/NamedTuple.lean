import Verif.Py

/-!
Model of `namedtuple_defaults` (`h800/instructions.py` 104-109). A value is an `Option α`, `none`
being None. That the field names are identifiers is left out.
-/

namespace H800

variable {α : Type}

/-- A named tuple type: its fields, and the defaults of its constructor, one for each of the last
`defaults.length` fields. Below there is one for each field. -/
structure NTType (α : Type) where
  fields : List Str
  defaults : List (Option α)
  deriving DecidableEq, Repr

/-- Python's binding of positional and keyword arguments to the parameters `fs`, of which the
corresponding ones of `ds` are the defaults. -/
def bindArgs : List Str → List (Option α) → List (Option α) → Dict Str (Option α) →
    Py (List (Option α))
  | [], _, [], _ => .ok []
  | [], _, _ :: _, _ => .error .typeError
  | f :: fs, ds, a :: as, kw =>
    match dget kw f with
    | some _ => .error .typeError
    | none => do
      let rest ← bindArgs fs ds.tail as kw
      return a :: rest
  | f :: fs, ds, [], kw =>
    match dget kw f, ds.head? with
    | some v, _ => do
      let rest ← bindArgs fs ds.tail [] kw
      return v :: rest
    | none, some d => do
      let rest ← bindArgs fs ds.tail [] kw
      return d :: rest
    | none, none => .error .typeError

/-- `T(*args, **kw)`: an unknown keyword is TypeError. -/
def NTType.call (T : NTType α) (args : List (Option α)) (kw : Dict Str (Option α)) :
    Py (List (Option α)) :=
  if ∃ p ∈ kw, p.1 ∉ T.fields then .error .typeError
  else bindArgs T.fields T.defaults args kw

/-- instructions.py 104-109. `namedtuple` (105) raises ValueError for repeated names; line 106 makes
None the default of all fields; 107 calls the constructor with the given defaults; 108 makes the
result the defaults. -/
def namedtupleDefaults (names : List Str) (values : List (Option α)) : Py (NTType α) :=
  if ¬ names.Nodup then .error .valueError
  else do
    let prototype ← NTType.call ⟨names, List.replicate names.length none⟩ values []
    return ⟨names, prototype⟩

end H800
