import Verif.Lemmas.SymbolTable
import Verif.Lemmas.Sort
import Verif.Lemmas.Decks

/-!
Properties C62-C67, C88 and C89: `SymbolTable` and its entries.
-/

namespace H800

open Spec

variable {ν : Type}

/-- C62: after any history (of `add` and other calls), looking up a name gives the entry of the
first `add` with that name, or None if there was none or the name is empty; the number of symbols
is the number of different non-empty names. -/
theorem C62_first_wins (calls : List (Call ν)) :
    (∀ n, match (adds calls).find? (fun a => a.name = n) with
      | some a => if n = [] then (after calls).lookup n = none
          else ∃ e, (after calls).lookup n = some e ∧ Holds a e
      | none => (after calls).lookup n = none) ∧
    ∃ names : List Str, names.Nodup ∧ (∀ n, n ∈ names ↔ n ≠ [] ∧ ∃ a ∈ adds calls, a.name = n) ∧
      (after calls).getNumSymbols = names.length := by
  constructor
  · intro n
    have h := (run_lookup_all (tinv_init (ν := ν)) calls n).2 rfl
    change match (adds calls).find? (fun a => n ≠ [] ∧ a.name = n) with
      | none => (after calls).lookup n = none
      | some a => ∃ r, (after calls).lookup n = _ at h
    by_cases hn : n = []
    · have : (adds calls).find? (fun a => decide (n ≠ [] ∧ a.name = n)) = none := by
        rw [List.find?_eq_none]; simp [hn]
      rw [this] at h
      split
      · rw [if_pos hn]; exact h
      · exact h
    · have e : (fun a : AddCall ν => decide (n ≠ [] ∧ a.name = n)) = fun a => decide (a.name = n) := by
        funext a; simp [hn]
      rw [e] at h
      cases hf : (adds calls).find? (fun a => decide (a.name = n)) with
      | none => rw [hf] at h; exact h
      | some a =>
        rw [hf] at h
        simp only [if_neg hn]
        obtain ⟨r, hr⟩ := h
        refine ⟨_, hr, ?_⟩
        unfold SymbolTableEntry.init Holds
        by_cases hs : a.symtype = some (py "absolute") <;> simp [hs]
  · obtain ⟨h1, h2⟩ := firsts_names [] (adds calls)
    refine ⟨_, h1, fun n => ?_, ?_⟩
    · rw [h2]; simp
    · have := congrArg List.length (run_all (tinv_init (ν := ν)) calls).2.1
      simpa [SymbolTable.init, after, SymbolTable.getNumSymbols] using this

example : let t := after (ν := Int) [
      .add ⟨py "A", py "f", 1, some 5, some (py "absolute"), none, none⟩, .ref (py "A") (py "x"),
       .add ⟨py "A", py "g", 2, some 6, none, none, none⟩, .add ⟨[], py "g", 3, none, none, none, none⟩]
    (t.lookup (py "A")).map (fun e => (e.file, e.absoluteValue)) = some (py "f", some 5) ∧
      t.getNumSymbols = 1 := by decide

/-- C63: after any history of calls, `undefines` lists, without duplicates and in order of
definition, exactly the names whose (first) `add` gave no value; these are the names whose entry is
not valid. -/
theorem C63_undefines (calls : List (Call ν)) :
    (after calls).undefs =
      ((firsts [] (adds calls)).filter (·.value.isNone)).map (·.name) ∧
    (after calls).undefs.Nodup ∧
    (∀ n, n ∈ (after calls).undefs ↔
      ∃ e, (after calls).lookup n = some e ∧ e.isValid = false) ∧
    (after calls).getNumUndefs = (after calls).undefs.length := by
  have h := run_all (tinv_init (ν := ν)) calls
  have hu : (after calls).undefs =
      ((firsts [] (adds calls)).filter (·.value.isNone)).map (·.name) := by
    have := h.2.2
    simpa [SymbolTable.init, after] using this
  refine ⟨hu, ?_, fun n => ⟨(tinv_after calls).entry n, ?_⟩, rfl⟩
  · rw [hu]
    exact (List.Sublist.map _ List.filter_sublist).nodup (firsts_names [] (adds calls)).1
  · rintro ⟨e, he, hv⟩
    rw [(tinv_after calls).undefs]
    exact List.mem_map.2 ⟨(n, e), List.mem_filter.2 ⟨dget_mem he, by simp [hv]⟩, rfl⟩

example : (after (ν := Int)
    [.add ⟨py "B", py "f", 1, none, none, none, none⟩, .add ⟨py "A", py "f", 1, none, none, none, none⟩,
     .add ⟨py "A", py "g", 2, some 6, none, none, none⟩, .prune, .resolve 10,
     .update (py "A") (some 3) none]).undefs = [py "B", py "A"] := by
  rw [(C63_undefines _).1]; decide

/-- C64, in full: after `pruneUndefines` no name left has a valid entry. -/
def C64_statement : Prop := ∀ (ν : Type) (t : SymbolTable ν),
  (∀ n ∈ t.undefs, ∃ e, t.lookup n = some e) →
  t.pruneUndefines.2 = .ok () ∧
  ∀ n ∈ t.pruneUndefines.1.undefs, ∀ e, t.lookup n = some e → e.isValid = false

/-- C64 is false: of two neighbours that both have a value, the second is skipped. -/
theorem C64_refuted : ¬ C64_statement := by
  intro h
  let e : SymbolTableEntry Int := ⟨py "A", some 1, none, none, [], 0, none, none, []⟩
  let t : SymbolTable Int := ⟨[(py "A", e), (py "B", e)], [py "A", py "B"]⟩
  have ht : ∀ n ∈ t.undefs, ∃ e, dget t.symbols n = some e := by
    intro n hn
    simp only [t, List.mem_cons, List.not_mem_nil, or_false] at hn
    rcases hn with rfl | rfl
    · exact ⟨e, rfl⟩
    · exact ⟨e, rfl⟩
  obtain ⟨-, h2⟩ := h Int t ht
  have hp : t.pruneUndefines.1.undefs = [py "B"] := by
    unfold SymbolTable.pruneUndefines
    rw [pruneLoop_eq _ _ ht]
    rfl
  rw [hp] at h2
  have := h2 (py "B") (by simp) e rfl
  cases this

/-- C64, what holds: the successor of a deleted name is skipped. If no two neighbours in the list
have a value, every name with a value is deleted and the others stay; in general the result is what
deleting while iterating leaves. Symbols are never changed. -/
theorem C64_prune_partial (t : SymbolTable ν) (ht : ∀ n ∈ t.undefs, ∃ e, t.lookup n = some e) :
    let resolved := fun n => ((t.lookup n).map (·.isValid)).getD false
    t.pruneUndefines.2 = .ok () ∧ t.pruneUndefines.1.symbols = t.symbols ∧
    t.pruneUndefines.1.undefs = deletedWhileIterating resolved t.undefs ∧
    ((t.undefs.IsChain fun a b => ¬ (resolved a = true ∧ resolved b = true)) →
      t.pruneUndefines.1.undefs = t.undefs.filter fun n => !resolved n) := by
  intro resolved
  have h : t.pruneUndefines.1.undefs = deletedWhileIterating resolved t.undefs ∧
      t.pruneUndefines.2 = .ok () := by
    unfold SymbolTable.pruneUndefines
    rw [pruneLoop_eq _ _ ht]
    simp [resolved, SymbolTable.lookup]
  refine ⟨h.2, rfl, h.1, fun hc => ?_⟩
  rw [h.1, deleted_isolated _ _ hc]

/-- C64 for tables reached by calls: the whole claim holds (there is never anything to delete). -/
theorem C64_reachable_partial (calls : List (Call ν)) :
    (after calls).pruneUndefines = (after calls, .ok ()) ∧
    ∀ n ∈ (after calls).undefs, ∀ e, (after calls).lookup n = some e → e.isValid = false := by
  refine ⟨(tinv_after calls).prune, fun n hn e he => ?_⟩
  obtain ⟨e', he', hv⟩ := (tinv_after calls).entry n hn
  rw [SymbolTable.lookup, he'] at he
  cases he; exact hv

example : deletedWhileIterating (fun n : Nat => n % 2 == 1) [1, 3, 2, 5, 4, 7] = [3, 2, 4] := by decide

/-- C65: on a reachable table `resolve` changes nothing; without passes it prints nothing, and
otherwise it makes one pass and reports that all symbols are resolved exactly if none is undefined,
and else the lack of progress with the number of undefined symbols. -/
theorem C65_resolve (calls : List (Call ν)) (maxPasses : Int) :
    let r := (after calls).resolve maxPasses
    r.1 = after calls ∧ r.2.1 = .ok () ∧
    (maxPasses < 1 → r.2.2 = []) ∧
    (1 ≤ maxPasses →
      (ResolveMsg.allResolved ∈ r.2.2 ↔ (after calls).undefs = []) ∧
      (∀ k, ResolveMsg.noProgress k ∈ r.2.2 ↔ (after calls).undefs ≠ [] ∧
        k = (after calls).undefs.length)) ∧
    r.2.2.countP (fun m => match m with | .pass _ _ => true | _ => false) ≤ maxPasses.toNat := by
  intro r
  have h := (tinv_after calls).resolve maxPasses
  have hr : r = _ := h
  rw [hr]
  refine ⟨rfl, rfl, fun hm => by simp [show maxPasses ≤ 0 by omega], fun hm => ?_, ?_⟩
  · rw [if_neg (by omega)]
    by_cases hu : (after calls).undefs = []
    · simp [hu]
    · simp [hu]
  · by_cases hm : maxPasses ≤ 0
    · simp [hm]
    · rw [if_neg hm]
      have : 1 ≤ maxPasses.toNat := by omega
      split <;> simpa using this

example : ((after (ν := Int) [.add ⟨py "B", py "f", 1, none, none, none, none⟩]).resolve 10).2.2 =
    [.pass 0 1, .noProgress 1] := by
  rw [(tinv_after _).resolve]; rfl

/-- C65, any table at all whose undefined names have entries: `resolve` ends without an exception,
keeps the symbols, and makes at most `maxPasses` passes. -/
theorem C65_any_table (t : SymbolTable ν) (ht : ∀ n ∈ t.undefs, ∃ e, t.lookup n = some e)
    (maxPasses : Int) :
    (t.resolve maxPasses).2.1 = .ok () ∧ (t.resolve maxPasses).1.symbols = t.symbols ∧
    (t.resolve maxPasses).1.undefs.Sublist t.undefs ∧
    (t.resolve maxPasses).2.2.countP (fun m => match m with | .pass _ _ => true | _ => false) ≤
      maxPasses.toNat := by
  unfold SymbolTable.resolve
  generalize maxPasses.toNat = k
  generalize 0 = i
  generalize t.undefs.length = n
  have key : ∀ (k i p n : Nat) (t : SymbolTable ν),
      (∀ n ∈ t.undefs, ∃ e, t.lookup n = some e) →
      (t.resolveLoop k i p n).2.1 = .ok () ∧ (t.resolveLoop k i p n).1.symbols = t.symbols ∧
      (t.resolveLoop k i p n).1.undefs.Sublist t.undefs ∧
      (t.resolveLoop k i p n).2.2.countP
        (fun m => match m with | .pass _ _ => true | _ => false) ≤ k := by
    intro k
    induction k with
    | zero => intro i p n t _; exact ⟨rfl, rfl, List.Sublist.refl _, le_refl _⟩
    | succ k ih =>
      intro i p n t ht
      obtain ⟨h1, h2, h3, -⟩ := C64_prune_partial t ht
      have hs : t.pruneUndefines.1.undefs.Sublist t.undefs := by
        rw [h3]; exact deleted_sublist _ _
      have hp : t.pruneUndefines = (t.pruneUndefines.1, .ok ()) := by rw [← h1]
      rw [SymbolTable.resolveLoop]
      by_cases hn : n = 0
      · rw [if_pos hn]; simp
      · rw [if_neg hn, hp]
        generalize t.pruneUndefines.1 = t' at h2 hs
        simp only
        split
        · refine ⟨rfl, h2, hs, ?_⟩; simp
        · obtain ⟨k1, k2, k3, k4⟩ := ih (i + 1) t'.undefs.length t'.undefs.length t' (by
            intro m hm
            obtain ⟨e, he⟩ := ht m (hs.subset hm)
            exact ⟨e, by rw [SymbolTable.lookup, h2]; exact he⟩)
          refine ⟨k1, k2.trans h2, k3.trans hs, ?_⟩
          rw [List.countP_cons]
          simpa using k4
  exact key k i n n t ht

/-- C66, in full: `update` of a defined name makes its entry valid with the given value. -/
def C66_statement : Prop := ∀ (ν : Type) (t : SymbolTable ν) (name : Str) (value : ν)
  (symtype : Option Str), name ≠ [] → (t.lookup name).isSome = true →
  (t.update name (some value) symtype).2 = .ok () ∧
  ∃ e, (t.update name (some value) symtype).1.lookup name = some e ∧
    (e.absoluteValue = some value ∨ e.complexValue = some value)

/-- C66 is false: `update` raises AttributeError. -/
theorem C66_refuted : ¬ C66_statement := by
  intro h
  let t : SymbolTable Int := SymbolTable.init.add (py "A") (py "f") 1 none none none none
  obtain ⟨h1, -⟩ := h Int t (py "A") 5 none (by decide) (by decide)
  have : (t.update (py "A") (some 5) none).2 = .error .attributeError := by decide
  rw [this] at h1
  cases h1

/-- C66, what holds: `update` never changes the table, and raises AttributeError for every
non-empty name, defined or not. -/
theorem C66_update_partial (t : SymbolTable ν) (name : Str) (value : Option ν)
    (symtype : Option Str) :
    (t.update name value symtype).1 = t ∧
    (t.update name value symtype).2 = if name = [] then .ok () else .error .attributeError := by
  unfold SymbolTable.update
  by_cases h : name = []
  · simp [h]
  · rw [if_neg h, if_neg h]; split <;> exact ⟨rfl, rfl⟩

/-- C67: an entry is valid iff it was given a value; absolute iff moreover its type is "absolute",
complex iff moreover it is not; never multiple. References do not change this. -/
theorem C67_predicates (name : Str) (value : Option ν) (symtype : Option Str) (file : Str)
    (line : Int) (segment subsegment : Option Str) (refs : List Str) :
    let e := refs.foldl SymbolTableEntry.addReference
      (SymbolTableEntry.init name value symtype file line segment subsegment)
    (e.isValid = true ↔ ∃ v, value = some v) ∧
    (e.isAbsolute = true ↔ symtype = some (py "absolute") ∧ ∃ v, value = some v) ∧
    (e.isComplex = true ↔ symtype ≠ some (py "absolute") ∧ ∃ v, value = some v) ∧
    e.isMultiple = false ∧ e.references = refs := by
  intro e
  have he : e = { SymbolTableEntry.init name value symtype file line segment subsegment with
      references := refs } := by
    have key : ∀ (refs : List Str) (e : SymbolTableEntry ν),
        refs.foldl SymbolTableEntry.addReference e =
          { e with references := e.references ++ refs } := by
      intro refs
      induction refs with
      | nil => intro e; simp
      | cons r refs ih =>
        intro e
        rw [List.foldl_cons, ih]
        simp [SymbolTableEntry.addReference]
    show refs.foldl _ _ = _
    rw [key]
    unfold SymbolTableEntry.init
    split <;> rfl
  rw [he]
  unfold SymbolTableEntry.isValid SymbolTableEntry.isMultiple SymbolTableEntry.isAbsolute
    SymbolTableEntry.isComplex SymbolTableEntry.init
  by_cases hs : symtype = some (py "absolute")
  · cases value <;> simp [hs]
  · cases value <;> simp [hs]

example : (SymbolTableEntry.init (py "A") (some 5) (some (py "absolute")) (py "f") 1 none none).isAbsolute
    = true := by decide

/-- C88, in full: the `value` of an entry is the value it was given. -/
def C88_statement : Prop := ∀ (ν : Type) (name : Str) (value : ν) (symtype : Option Str)
  (file : Str) (line : Int) (segment subsegment : Option Str),
  (SymbolTableEntry.init name (some value) symtype file line segment subsegment).value = .ok value

/-- C88 is false: reading `value` raises AttributeError. -/
theorem C88_refuted : ¬ C88_statement := by
  intro h
  have := h Int (py "A") 5 none (py "f") 1 none none
  cases this

/-- C88, what holds: the value is stored, as absolute or complex value, but `value` always raises
AttributeError. -/
theorem C88_value_partial (name : Str) (value : Option ν) (symtype : Option Str) (file : Str)
    (line : Int) (segment subsegment : Option Str) :
    let e := SymbolTableEntry.init name value symtype file line segment subsegment
    e.value = .error .attributeError ∧
    (symtype = some (py "absolute") → e.absoluteValue = value ∧ e.complexValue = none) ∧
    (symtype ≠ some (py "absolute") → e.complexValue = value ∧ e.absoluteValue = none) := by
  intro e
  refine ⟨rfl, fun hs => ?_, fun hs => ?_⟩
  · simp [e, SymbolTableEntry.init, hs]
  · simp [e, SymbolTableEntry.init, hs]

theorem printed_ok (t : SymbolTable ν) (names : List Str)
    (h : ∀ n ∈ names, ∃ e, t.lookup n = some e) :
    ∃ es, t.printed names = .ok es ∧ es.map some = names.map t.lookup := by
  induction names with
  | nil => exact ⟨[], rfl, rfl⟩
  | cons n names ih =>
    obtain ⟨es, h1, h2⟩ := ih fun m hm => h m (List.mem_cons_of_mem _ hm)
    obtain ⟨e, he⟩ := h n List.mem_cons_self
    refine ⟨e :: es, mapM_cons_ok.2 ⟨e, es, ?_, h1, rfl⟩, by simp [h2, he]⟩
    rw [SymbolTable.lookup] at he
    simp [dgetE, he]

/-- C89: on a reachable table `printTable` never fails: it prints the entries of all symbols, each
once, in the order of their names, and then, if there are any, those of the undefined symbols;
`printUndefs` prints the number and the entries of the undefined symbols. -/
theorem C89_print (calls : List (Call ν)) :
    let t := after calls
    ∃ (names : List Str) (defs undefs : List (SymbolTableEntry ν)),
      names.Pairwise (fun a b => strLe a b = true ∧ a ≠ b) ∧
      (∀ n, n ∈ names ↔ ∃ e, t.lookup n = some e) ∧
      defs.map some = names.map t.lookup ∧ undefs.map some = t.undefs.map t.lookup ∧
      t.printTable = .ok (defs, if t.undefs = [] then none else some undefs) ∧
      t.printUndefs = .ok (t.undefs.length, undefs) := by
  intro t
  have hnames : ∀ n, n ∈ pySortedStr (t.symbols.map (·.1)) ↔ ∃ e, t.lookup n = some e := by
    intro n
    rw [(pySortedStr_perm _).mem_iff, ← dget_isSome, Option.isSome_iff_exists]
    rfl
  obtain ⟨defs, d1, d2⟩ := printed_ok t (pySortedStr (t.symbols.map (·.1))) fun n hn => (hnames n).1 hn
  obtain ⟨us, u1, u2⟩ := printed_ok t t.undefs fun n hn => by
    obtain ⟨e, he, -⟩ := (tinv_after calls).entry n hn
    exact ⟨e, he⟩
  refine ⟨_, defs, us, ?_, hnames, d2, u2, ?_, ?_⟩
  · exact (pySortedStr_pairwise _).and
      ((pySortedStr_perm _).nodup_iff.2 (tinv_after calls).nodup)
  · unfold SymbolTable.printTable
    rw [d1]
    simp only [py_bind_ok]
    by_cases hu : t.undefs = []
    · rw [if_neg (by simp [hu]), if_pos hu]; rfl
    · have : t.undefs.length > 0 := List.length_pos_iff.2 hu
      rw [if_pos this, if_neg hu, u1]; rfl
  · unfold SymbolTable.printUndefs
    rw [u1]; rfl

example : ((after (ν := Int) [.add ⟨py "B", py "f", 1, none, none, none, none⟩,
      .add ⟨py "A", py "f", 2, some 1, none, none, none⟩]).printTable.toOption.map
    fun p => (p.1.map (·.name), p.2.map (·.map (·.name)))) =
    some ([py "A", py "B"], some [py "B"]) := by decide

end H800
