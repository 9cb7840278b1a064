import Verif.Model.Assembler
import Mathlib.Data.List.Induction

/-!
Properties C130 and C131: resetting a context; assembling a file.
-/

namespace H800

/-- The methods of a context that a client can call on it. -/
inductive CtxOp where
  | reset
  | load (r : CtxRecord)
  | save (r : CtxRecord)
  | setLoc (memmap : Option (Int → Bool)) (address : Int)
  | setCoLoc (memmap : Option (Int → Bool)) (address : Int)

/-- One call; an exception is caught by the client. -/
def CtxOp.run (c : Context) : CtxOp → Context
  | .reset => c.reset
  | .load r => c.load r
  | .save _ => c
  | .setLoc m x => (c.setLoc m x).1
  | .setCoLoc m x => (c.setCoLoc m x).1

/-- A new context, as the constructor means to make it (context.py 28-71; C116 shows that it does not
get there): nothing read, location 0 of bank 0, no messages, no errors. -/
def newContext : Context :=
  { linenum := 0, globalLinenum := 0, code := [], srcline := none, currentRecord := none,
    previousRecord := none, addSymbol := true, reparse := false, passnum := 0, loc := 0, bank := 0,
    coloc := none, errorMsg := none, warningMsg := none, errors := 0, warnings := 0 }

/-- C130, the property as stated: after any use, a context that is reset is as a new one. -/
def C130_statement : Prop :=
  ∀ ops : List CtxOp, (ops.foldl CtxOp.run newContext).reset = newContext

/-- C130 fails: the messages of a record loaded before survive. -/
theorem C130_refuted : ¬ C130_statement := by
  intro h
  have := congrArg Context.errorMsg (h [.load ⟨3, 7, [1], none, 5, 1, 2, some (py "E"), none⟩])
  exact absurd this (by decide)

theorem setLoc_same (c : Context) (m : Option (Int → Bool)) (x : Int) : (c.setLoc m x).1 = c := by
  unfold Context.setLoc
  split
  · rfl
  · split
    · rfl
    · split <;> rfl

theorem setCoLoc_same (c : Context) (m : Option (Int → Bool)) (x : Int) :
    (c.setCoLoc m x).1 = c := by
  unfold Context.setCoLoc
  split
  · rfl
  · split
    · rfl
    · split <;> rfl

/-- C130, what holds: after any use, a reset context is a new one but for the other location and the
messages, which are those of the last record loaded; so it is a new one exactly if nothing was ever
loaded. Resetting it again changes nothing. -/
theorem C130_reset_partial (ops : List CtxOp) :
    let c := ops.foldl CtxOp.run newContext
    let loaded := (ops.filterMap fun | .load r => some r | _ => none).getLast?
    c.reset = { newContext with
      coloc := loaded.map (·.coloc)
      errorMsg := loaded.bind (·.errorMsg)
      warningMsg := loaded.bind (·.warningMsg) } ∧
    (c.reset = newContext ↔ ∀ r, CtxOp.load r ∉ ops) ∧ c.reset.reset = c.reset := by
  intro c loaded
  have key : c.reset = { newContext with
      coloc := loaded.map (·.coloc)
      errorMsg := loaded.bind (·.errorMsg)
      warningMsg := loaded.bind (·.warningMsg) } := by
    show (ops.foldl CtxOp.run newContext).reset = { newContext with
      coloc := ((ops.filterMap fun | .load r => some r | _ => none).getLast?).map (·.coloc)
      errorMsg := ((ops.filterMap fun | .load r => some r | _ => none).getLast?).bind (·.errorMsg)
      warningMsg :=
        ((ops.filterMap fun | .load r => some r | _ => none).getLast?).bind (·.warningMsg) }
    clear c loaded
    induction ops using List.reverseRecOn with
    | nil => rfl
    | append_singleton ops op ih =>
      rw [List.foldl_append, List.filterMap_append]
      simp only [List.foldl_cons, List.foldl_nil]
      cases op with
      | reset => simpa [CtxOp.run, Context.reset] using ih
      | load r =>
        simp only [List.filterMap_cons, List.filterMap_nil, List.getLast?_append,
          List.getLast?_singleton, Option.some_or, Option.map_some, Option.bind_some]
        have hp : (ops.foldl CtxOp.run newContext).reset.passnum = 0 ∧
            (ops.foldl CtxOp.run newContext).reset.errors = 0 ∧
            (ops.foldl CtxOp.run newContext).reset.warnings = 0 := by
          rw [ih]; exact ⟨rfl, rfl, rfl⟩
        generalize ops.foldl CtxOp.run newContext = c at hp ⊢
        obtain ⟨h1, h2, h3⟩ := hp
        simp only [Context.reset] at h1 h2 h3
        simp only [CtxOp.run, Context.load, Context.reset, newContext, h1, h2, h3]
      | save r => simpa [CtxOp.run] using ih
      | setLoc m x => simpa [CtxOp.run, setLoc_same] using ih
      | setCoLoc m x => simpa [CtxOp.run, setCoLoc_same] using ih
  refine ⟨key, ?_, rfl⟩
  constructor
  · intro h r hr
    have hmem : r ∈ ops.filterMap fun | .load r => some r | _ => none :=
      List.mem_filterMap.2 ⟨.load r, hr, rfl⟩
    rw [key] at h
    have := congrArg Context.coloc h
    change loaded.map (·.coloc) = none at this
    rw [Option.map_eq_none_iff] at this
    change (List.filterMap _ ops).getLast? = none at this
    rw [List.getLast?_eq_none_iff] at this
    rw [this] at hmem
    cases hmem
  · intro h
    have : loaded = none := by
      show (List.filterMap _ ops).getLast? = none
      rw [List.getLast?_eq_none_iff, List.filterMap_eq_nil_iff]
      intro op hop
      cases op with
      | load r => exact absurd hop (h r)
      | reset => rfl
      | save r => rfl
      | setLoc m x => rfl
      | setCoLoc m x => rfl
    rw [key, this]
    rfl

/-- A history with two loads: the second one's messages are left. -/
example : ([CtxOp.load ⟨3, 7, [1], none, 5, 1, 2, some (py "E"), none⟩, .reset,
      .load ⟨4, 8, [], none, 6, 1, 9, none, some (py "W")⟩, .setLoc none 7].foldl CtxOp.run
        newContext).reset =
    { newContext with coloc := some 9, warningMsg := some (py "W") } := rfl

/-- C131, the property as stated: after assembling a file the assembler has a record for every line
and its line number is the number of lines. -/
def C131_statement : Prop :=
  ∀ (fs : FileSystem) (a a' : Assembler) (file text : Str), fs file = some text →
    a.assemble fs file = (a', .ok ()) →
    a'.linenum = some (readlines text).length ∧
      ∃ rs, a'.records = some rs ∧ rs.length = (readlines text).length

/-- C131 fails: the lines are read and dropped. -/
theorem C131_refuted : ¬ C131_statement := by
  intro h
  have := (h (fun _ => some (py " A\n")) Assembler.init _ (py "f") (py " A\n") rfl rfl).1
  exact absurd this (by decide)

/-- C131, what holds: assembling succeeds exactly if the file exists, and FileNotFoundError is raised
otherwise; it notes the name of the file, puts the line number to 0 and changes nothing else, so that
the text of the file has no influence on the assembler. -/
theorem C131_assemble_partial (fs : FileSystem) (a : Assembler) (file : Str) :
    (a.assemble fs file).1 = { a with srcfile := some file, linenum := some 0 } ∧
    ((a.assemble fs file).2 = .ok () ↔ ∃ text, fs file = some text) ∧
    (fs file = none → (a.assemble fs file).2 = .error .fileNotFound) := by
  unfold Assembler.assemble
  cases h : fs file with
  | none => exact ⟨rfl, ⟨fun e => (nomatch e), fun e => (nomatch e)⟩, fun _ => rfl⟩
  | some t => exact ⟨rfl, ⟨fun _ => ⟨t, rfl⟩, fun _ => rfl⟩, fun e => (nomatch e)⟩

/-- Assembling a file that exists and one that does not. -/
example : let fs : FileSystem := fun n => if n = py "f" then some (py " A\n B\n") else none
    (Assembler.init.assemble fs (py "f")).2 = .ok () ∧
    (Assembler.init.assemble fs (py "g")).2 = .error .fileNotFound := ⟨rfl, rfl⟩

end H800
