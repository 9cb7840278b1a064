import Verif.Spec.SymbolTable
import Verif.Spec.Messages
import Verif.Spec.Repr
import Verif.Spec.Text

/-!
What the methods of a symbol table have to print.
-/

namespace H800.Spec

/-- The name has an entry with a value. -/
def HasValue {ν : Type} (t : SymbolTable ν) (n : Str) : Prop := ∃ e, t.lookup n = some e ∧ e.isValid = true

/-- The line that shows an object of the class of entries at this address. -/
def ObjectLine (address : Nat) (line : Str) : Prop :=
  ∃ h, Hex h address ∧ line = py "<h800.symbol_table.SymbolTableEntry object at 0x" ++ h ++ py ">"

/-- The lines that tell that of the undefined names `us` the names `us'` are left: how many there were,
which are removed, and how many these are. `known` are the names that have a value. -/
def PruneSays (known : Str → Prop) (us us' : List Str) (lines : List Str) : Prop :=
  ∃ gone nu ng, Shortest us.length nu ∧ Shortest gone.length ng ∧
    lines = [py "Pruning undefined symbols list (" ++ nu ++ py " undefs)"] ++
      gone.map (fun n => py "Removing " ++ n ++ py " from undefined symbols list") ++
      [py "Removed " ++ ng ++ py " symbols from undef list"] ∧
    us.Perm (gone ++ us') ∧ gone.Sublist us ∧ us'.Sublist us ∧ (∀ n ∈ gone, known n) ∧
    ((∃ n ∈ us, known n) → gone ≠ [])

/-- The line at the beginning of pass `i`. -/
def PassLine (i : Nat) (us : List Str) (line : Str) : Prop :=
  ∃ ni nu, Shortest i ni ∧ Shortest us.length nu ∧
    line = py "Symbol pass " ++ ni ++ py ": " ++ nu ++ py " undefined symbols"

/-- The lines that tell of a pass over the names. -/
def PassSays (known : Str → Prop) (i : Nat) (us us' : List Str) (lines : List Str) : Prop :=
  ∃ first prune, PassLine i us first ∧ PruneSays known us us' prune ∧
    lines = [first] ++ us.map (fun n => py "Attempting to resolve symbol \"" ++ n ++ py "\"") ++ prune

/-- The lines of at most `k` passes from pass `i` on, which begin with the undefined names `us` and end
with `us'`: passes in which names are removed, and then the end. -/
inductive Resolves (known : Str → Prop) : Nat → Nat → List Str → List Str → List Str → Prop
  | out {i : Nat} {us : List Str} : Resolves known 0 i us us []
  | done {k i : Nat} {line : Str} : PassLine i [] line →
      Resolves known (k + 1) i [] [] [line, py "All symbols resolved!"]
  | stuck {k i : Nat} {us lines : List Str} {nu : Str} : us ≠ [] → PassSays known i us us lines →
      Shortest us.length nu → Resolves known (k + 1) i us us
        (lines ++ [py "ERROR: No progress resolving symbols, " ++ nu ++ py " undefined symbols"])
  | on {k i : Nat} {us mid us' lines rest : List Str} : us ≠ [] → PassSays known i us mid lines →
      mid.length < us.length → Resolves known k (i + 1) mid us' rest →
      Resolves known (k + 1) i us us' (lines ++ rest)

end H800.Spec
