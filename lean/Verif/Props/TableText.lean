import Verif.Lemmas.TableText
import Verif.Props.Text

/-!
C186: what the methods of a symbol table print. C187: a printed table shows its symbols.
-/

namespace H800

open Spec

variable {ν : Type}

/-- C186: after any history, `add` prints that a symbol is defined already exactly if one of that name
was added before, and else nothing. -/
theorem C186_add (calls : List (Call ν)) (n : Str) :
    ((n ≠ [] ∧ ∃ a ∈ adds calls, a.name = n) →
      (after calls).addLines n = [py "ERROR: Symbol \"" ++ n ++ py "\" already defined!"]) ∧
    (¬ (n ≠ [] ∧ ∃ a ∈ adds calls, a.name = n) → (after calls).addLines n = []) := by
  have h := (C62_first_wins calls).1 n
  unfold SymbolTable.addLines
  by_cases hn : n = []
  · simp [hn]
  · rw [if_neg hn]
    cases hf : (adds calls).find? (fun a => a.name = n) with
    | none =>
      rw [hf] at h
      simp only [SymbolTable.lookup] at h
      rw [h]
      rw [List.find?_eq_none] at hf
      exact ⟨fun ⟨_, a, h1, h2⟩ => absurd h2 (by simpa using hf a h1), fun _ => rfl⟩
    | some a =>
      rw [hf] at h
      simp only [if_neg hn] at h
      obtain ⟨e, he, -⟩ := h
      simp only [SymbolTable.lookup] at he
      rw [he]
      exact ⟨fun _ => rfl, fun h => absurd ⟨hn, a, List.mem_of_find?_eq_some hf,
        by simpa using List.find?_some hf⟩ h⟩

example : (after (ν := Int) [.add ⟨py "A", py "f", 1, some 5, none, none, none⟩]).addLines (py "A") =
    [py "ERROR: Symbol \"A\" already defined!"] := by decide +kernel

/-- C186: what `pruneUndefines` prints tells what it does. -/
theorem C186_prune (t : SymbolTable ν) (ht : ∀ n ∈ t.undefs, ∃ e, t.lookup n = some e) :
    PruneSays (HasValue t) t.undefs t.pruneUndefines.1.undefs t.pruneLines := by
  obtain ⟨h1, -, h3, -⟩ := C64_prune_partial t ht
  have hp : t.pruneUndefines = (t.pruneUndefines.1, .ok ()) := by rw [← h1]
  have hk : ∀ n, ((t.lookup n).map (·.isValid)).getD false = true ↔ HasValue t n := by
    intro n
    unfold HasValue
    cases t.lookup n <;> simp
  unfold SymbolTable.pruneLines
  rw [hp]
  simp only
  rw [h3, pruneLoopLines_eq _ _ ht, List.drop_zero]
  have hl := (gone_perm (fun n => ((t.lookup n).map (·.isValid)).getD false) t.undefs).length_eq
  rw [List.length_append] at hl
  refine ⟨goneWhile (fun n => ((t.lookup n).map (·.isValid)).getD false) t.undefs, _, _,
    pyStr_shortest _, pyStr_shortest _, ?_, gone_perm _ _, gone_sublist _ _, deleted_sublist _ _,
    fun n hn => (hk n).1 (gone_mem _ _ n hn),
    fun ⟨n, h1, h2⟩ => gone_some _ _ ⟨n, h1, (hk n).2 h2⟩⟩
  rw [show ((t.undefs.length : Int) - ((deletedWhileIterating
    (fun n => ((t.lookup n).map (·.isValid)).getD false) t.undefs).length : Int)) =
    ((goneWhile (fun n => ((t.lookup n).map (·.isValid)).getD false) t.undefs).length : Int) by omega]
  rfl

theorem resolveLoop_says (k i : Nat) : ∀ t : SymbolTable ν,
    (∀ n ∈ t.undefs, ∃ e, t.lookup n = some e) →
    Resolves (HasValue t) k i t.undefs
      (t.resolveLoop k i t.undefs.length t.undefs.length).1.undefs
      (t.resolveLoopLines k i t.undefs.length t.undefs.length) := by
  induction k generalizing i with
  | zero => intro t _; exact .out
  | succ k ih =>
    intro t ht
    obtain ⟨h1, h2, h3, -⟩ := C64_prune_partial t ht
    have hs : t.pruneUndefines.1.undefs.Sublist t.undefs := by
      rw [h3]; exact deleted_sublist _ _
    have hp : t.pruneUndefines = (t.pruneUndefines.1, .ok ()) := by rw [← h1]
    have hsay := C186_prune t ht
    rw [SymbolTable.resolveLoop, SymbolTable.resolveLoopLines]
    by_cases hn : t.undefs.length = 0
    · rw [if_pos hn, if_pos hn]
      simp only
      rw [List.length_eq_zero_iff.1 hn]
      exact .done ⟨_, _, pyStr_shortest _, pyStr_shortest _, rfl⟩
    · rw [if_neg hn, if_neg hn, hp]
      have hne : t.undefs ≠ [] := fun e => hn (by rw [e]; rfl)
      generalize t.pruneUndefines.1 = t' at h2 hs hsay
      have hpass : PassSays (HasValue t) i t.undefs t'.undefs
          ((py "Symbol pass " ++ pyStr i ++ py ": " ++ pyStr t.undefs.length ++
            py " undefined symbols") ::
            (t.undefs.map (fun symbol => py "Attempting to resolve symbol \"" ++ symbol ++ ['"']) ++
              t.pruneLines)) :=
        ⟨_, _, ⟨_, _, pyStr_shortest _, pyStr_shortest _, rfl⟩, hsay, by simp⟩
      simp only
      by_cases hl : t'.undefs.length = t.undefs.length
      · rw [if_pos hl, if_pos hl]
        have he : t'.undefs = t.undefs := hs.eq_of_length hl
        rw [he] at hpass ⊢
        exact Resolves.stuck hne hpass (pyStr_shortest _)
      · rw [if_neg hl, if_neg hl]
        have hlt : t'.undefs.length < t.undefs.length := by
          have := hs.length_le; omega
        have hlook : ∀ n, t'.lookup n = t.lookup n := fun n => by
          rw [SymbolTable.lookup, h2]; rfl
        have hval : HasValue t' = HasValue t := by
          funext n; unfold HasValue; rw [hlook]
        have hrest := ih (i + 1) t' fun m hm => by
          rw [hlook]; exact ht m (hs.subset hm)
        rw [hval] at hrest
        exact Resolves.on hne hpass hlt hrest

/-- C186: what `resolve` prints tells what it does. -/
theorem C186_resolve (t : SymbolTable ν) (ht : ∀ n ∈ t.undefs, ∃ e, t.lookup n = some e)
    (maxPasses : Int) :
    Resolves (HasValue t) maxPasses.toNat 0 t.undefs (t.resolve maxPasses).1.undefs
      (t.resolveLines maxPasses) :=
  resolveLoop_says _ _ t ht

/-- C186: after any history all undefined names have entries, so that the above holds, and since none of
them has a value, `resolve` makes one pass at most. -/
theorem C186_reachable (calls : List (Call ν)) :
    (∀ n ∈ (after calls).undefs, ∃ e, (after calls).lookup n = some e) ∧
    ∀ n ∈ (after calls).undefs, ¬ HasValue (after calls) n := by
  refine ⟨fun n hn => ?_, fun n hn ⟨e, he, hv⟩ => ?_⟩
  · obtain ⟨e, he, -⟩ := (tinv_after calls).entry n hn
    exact ⟨e, he⟩
  · rw [(C64_reachable_partial calls).2 n hn e he] at hv
    cases hv

theorem entryLines_map (addr : SymbolTableEntry ν → Nat) (t : SymbolTable ν) (names : List Str)
    (es : List (SymbolTableEntry ν)) (h : es.map some = names.map t.lookup) :
    t.entryLines addr names = es.map (SymbolTable.entryText addr) := by
  induction names generalizing es with
  | nil =>
    cases es with
    | nil => rfl
    | cons _ _ => cases h
  | cons n names ih =>
    cases es with
    | nil => cases h
    | cons e es =>
      simp only [List.map_cons, List.cons.injEq] at h
      rw [SymbolTable.entryLines, show dget t.symbols n = some e from h.1.symm]
      simp only [List.map_cons]
      rw [ih es h.2]

/-- C187 in full: from a printed table the names of its symbols can be told. -/
def C187_statement : Prop := ∀ (ν : Type) (calls calls' : List (Call ν))
  (addr addr' : SymbolTableEntry ν → Nat),
  (after calls).printTableLines addr = (after calls').printTableLines addr' →
  ∀ n, (∃ e, (after calls).lookup n = some e) ↔ ∃ e, (after calls').lookup n = some e

/-- C187 is false: nothing but the addresses of the entries is printed. -/
theorem C187_refuted : ¬ C187_statement := by
  intro h
  have h1 := h Int [.add ⟨py "A", py "f", 1, some 5, none, none, none⟩]
    [.add ⟨py "B", py "f", 1, some 5, none, none, none⟩] (fun _ => 4096) (fun _ => 4096)
    (by decide +kernel) (py "A")
  obtain ⟨e, he⟩ := h1.1 ⟨_, rfl⟩
  have : (after (ν := Int) [.add ⟨py "B", py "f", 1, some 5, none, none, none⟩]).lookup (py "A") =
    none := by decide +kernel
  rw [this] at he
  cases he

/-- C187, what holds: there is one line for each symbol, in the order of the names, and then one for each
undefined symbol, in the order of definition; but a line shows the address of the entry only. -/
theorem C187_lines_partial (addr : SymbolTableEntry ν → Nat) (calls : List (Call ν)) :
    let t := after calls
    ∃ (names : List Str) (defs undefs : List (SymbolTableEntry ν)) (ls us : List Str) (nu : Str),
      names.Pairwise (fun a b => NotAfter a b ∧ a ≠ b) ∧
      (∀ n, n ∈ names ↔ ∃ e, t.lookup n = some e) ∧
      defs.map some = names.map t.lookup ∧ undefs.map some = t.undefs.map t.lookup ∧
      List.Forall₂ (fun e l => ObjectLine (addr e) l) defs ls ∧
      List.Forall₂ (fun e l => ObjectLine (addr e) l) undefs us ∧ Shortest t.undefs.length nu ∧
      t.printTableLines addr = [[], py "Defined symbols:", []] ++ ls ++
        (if t.undefs = [] then [] else [[], py "Undefined symbols:", []] ++ us) ∧
      t.printUndefsLines addr = [[], py "Undefined symbols: " ++ nu, []] ++ us := by
  intro t
  have hnames : ∀ n, n ∈ pySortedStr (t.symbols.map (·.1)) ↔ ∃ e, t.lookup n = some e := by
    intro n
    rw [(pySortedStr_perm _).mem_iff, ← dget_isSome, Option.isSome_iff_exists]
    rfl
  obtain ⟨defs, d1, d2⟩ := printed_ok t (pySortedStr (t.symbols.map (·.1))) fun n hn => (hnames n).1 hn
  obtain ⟨us, u1, u2⟩ := printed_ok t t.undefs fun n hn => by
    obtain ⟨e, he, -⟩ := (tinv_after calls).entry n hn
    exact ⟨e, he⟩
  have hall : ∀ l : List (SymbolTableEntry ν),
      List.Forall₂ (fun e l => ObjectLine (addr e) l) l (l.map (SymbolTable.entryText addr)) := by
    intro l
    induction l with
    | nil => exact .nil
    | cons e l ih => exact .cons ⟨_, digits_hex (addr e), rfl⟩ ih
  refine ⟨_, defs, us, _, _, _, ?_, hnames, d2, u2, hall defs, hall us, pyStr_shortest _, ?_, ?_⟩
  · exact ((pySortedStr_pairwise _).imp fun h => (C175_order _ _).1 h).and
      ((pySortedStr_perm _).nodup_iff.2 (tinv_after calls).nodup)
  · unfold SymbolTable.printTableLines
    simp only
    rw [d1, entryLines_map addr t _ _ d2]
    simp only
    by_cases hu : t.undefs = []
    · rw [if_neg (by simp [hu]), if_pos hu]
    · rw [if_pos (List.length_pos_iff.2 hu), if_neg hu, entryLines_map addr t _ _ u2]
  · unfold SymbolTable.printUndefsLines
    rw [entryLines_map addr t _ _ u2]

example : (after (ν := Int) [.add ⟨py "B", py "f", 1, none, none, none, none⟩]).printTableLines
    (fun _ => 255) = [[], py "Defined symbols:", [],
      py "<h800.symbol_table.SymbolTableEntry object at 0xff>", [], py "Undefined symbols:", [],
      py "<h800.symbol_table.SymbolTableEntry object at 0xff>"] := by decide +kernel

end H800
