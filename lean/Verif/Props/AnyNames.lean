import Verif.Model.AnyNames
import Verif.Lemmas.SymbolTable

/-!
Property C237: a symbol table whose names are of any type.
-/

namespace H800

open Spec
open PyNames (truth hashable tupleLength)

/-! ### C237 -/

/-- The arguments of a call of `add`. -/
structure AnyAdd (N ν : Type) where
  /-- name -/
  name : N
  /-- srcfile -/
  file : Str
  /-- linenum -/
  line : Int
  /-- value, None if missing -/
  value : Option ν
  /-- symtype -/
  symtype : Option Str
  /-- segment -/
  segment : Option Str
  /-- subsegment -/
  subsegment : Option Str

/-- A call on a symbol table. -/
inductive AnyCall (N ν : Type) where
  /-- `t.add(…)` -/
  | add (c : AnyAdd N ν)
  /-- `t.lookup(name).addReference(ref)` -/
  | ref (name : N) (ref : Str)
  /-- `t.update(name, value, symtype)` -/
  | update (name : N) (value : Option ν) (symtype : Option Str)
  /-- `t.pruneUndefines()` -/
  | prune
  /-- `t.resolve(maxPasses)` -/
  | resolve (maxPasses : Int)

variable {N ν : Type} [DecidableEq N] [PyNames N]

/-- The table after a call, and how the call ends. -/
def AnyCall.run (t : AnyTable N ν) : AnyCall N ν → AnyTable N ν × Py Unit
  | .add c => t.add c.name c.file c.line c.value c.symtype c.segment c.subsegment
  | .ref n r => t.addReference n r
  | .update n v s => t.update n v s
  | .prune => t.pruneUndefines
  | .resolve m => t.resolve m

/-- The table after calls whose exceptions the caller catches. -/
def anyAfter (calls : List (AnyCall N ν)) : AnyTable N ν :=
  calls.foldl (fun t c => (c.run t).1) AnyTable.init

/-- The name of the call. -/
def AnyCall.name? : AnyCall N ν → Option N
  | .add c => some c.name
  | .ref n _ | .update n _ _ => some n
  | .prune | .resolve _ => none

/-- A symbol of this name was added. -/
def AddedAny (calls : List (AnyCall N ν)) (n : N) : Prop :=
  truth n = true ∧ hashable n = true ∧ ∃ c, .add c ∈ calls ∧ c.name = n

/-- The call of `add` that defines its name. -/
def DefinesAny (calls : List (AnyCall N ν)) (c : AnyAdd N ν) : Prop :=
  truth c.name = true ∧ hashable c.name = true ∧
    ∃ pre post, calls = pre ++ .add c :: post ∧ ¬ AddedAny pre c.name

/-- The name can be put into a message: it is no tuple, or one of one element. -/
def Sayable (n : N) : Prop := ∀ k, tupleLength n = some k → k = 1

/-- How a call fails after the calls before it. -/
def FailsAny (calls : List (AnyCall N ν)) : AnyCall N ν → PyErr → Prop
  | .add c, e => e = .typeError ∧ truth c.name = true ∧
      (hashable c.name = false ∨ AddedAny calls c.name ∧ ¬ Sayable c.name)
  | .ref n _, e => (hashable n = false ∧ e = .typeError) ∨
      (hashable n = true ∧ ¬ AddedAny calls n ∧ e = .attributeError)
  | .update n _ _, e => truth n = true ∧ e = .attributeError
  | .prune, _ => False
  | .resolve m, e => e = .typeError ∧ 0 < m ∧
      ∃ c, DefinesAny calls c ∧ c.value = none ∧ ¬ Sayable c.name

/-- C237, the property as stated: with names that can be hashed, `add`, `pruneUndefines` and `resolve` do
not fail. -/
def C237_statement : Prop :=
  ∀ (N ν : Type) (_ : DecidableEq N) (_ : PyNames N) (calls : List (AnyCall N ν)) (call : AnyCall N ν),
    (∀ c ∈ call :: calls, ∀ n, c.name? = some n → hashable n = true) →
    ((∃ c, call = .add c) ∨ call = .prune ∨ ∃ m, call = .resolve m) →
    (call.run (anyAfter calls)).2 = .ok ()

/-- An entry with the name written as a string. -/
def AnyEntry.rename (g : N → Str) (e : AnyEntry N ν) : SymbolTableEntry ν :=
  ⟨g e.name, e.absoluteValue, e.complexValue, e.symtype, e.file, e.line, e.segment, e.subsegment,
    e.references⟩

/-- A table of names of any type with the names written as strings. -/
def AnyTable.rename (g : N → Str) (t : AnyTable N ν) : SymbolTable ν :=
  ⟨t.symbols.map fun p => (g p.1, p.2.rename g), t.undefs.map g⟩

/-- The same call with the name written as a string; none for a name that cannot be hashed. -/
def AnyCall.rename (g : N → Str) : AnyCall N ν → Option (Call ν)
  | .add c => if hashable c.name then
      some (.add ⟨g c.name, c.file, c.line, c.value, c.symtype, c.segment, c.subsegment⟩) else none
  | .ref n r => if hashable n then some (.ref (g n) r) else none
  | .update n v s => some (.update (g n) v s)
  | .prune => some .prune
  | .resolve m => some (.resolve m)

/-- Names that can be hashed are written as strings in such a way that they can be told apart and the
empty string stands for those that are false. -/
structure Spells (g : N → Str) (calls : List (AnyCall N ν)) : Prop where
  apart : ∀ c ∈ calls, ∀ d ∈ calls, ∀ a b, c.name? = some a → d.name? = some b →
    hashable a = true → hashable b = true → truth a = true → truth b = true → g a = g b → a = b
  empty : ∀ c ∈ calls, ∀ a, c.name? = some a → hashable a = true → (g a = [] ↔ truth a = false)

/-! #### Proofs -/

omit [DecidableEq N] in
theorem added_snoc (calls : List (AnyCall N ν)) (call : AnyCall N ν) (n : N) :
    AddedAny (calls ++ [call]) n ↔ AddedAny calls n ∨
      truth n = true ∧ hashable n = true ∧ ∃ c, call = .add c ∧ c.name = n := by
  unfold AddedAny
  constructor
  · rintro ⟨h1, h2, c, hc, rfl⟩
    rcases List.mem_append.1 hc with h | h
    · exact .inl ⟨h1, h2, c, h, rfl⟩
    · exact .inr ⟨h1, h2, c, (List.mem_singleton.1 h).symm, rfl⟩
  · rintro (⟨h1, h2, c, hc, rfl⟩ | ⟨h1, h2, c, rfl, rfl⟩)
    · exact ⟨h1, h2, c, List.mem_append_left _ hc, rfl⟩
    · exact ⟨h1, h2, c, by simp, rfl⟩

omit [DecidableEq N] in
theorem defines_snoc (calls : List (AnyCall N ν)) (call : AnyCall N ν) (c : AnyAdd N ν) :
    DefinesAny (calls ++ [call]) c ↔ DefinesAny calls c ∨
      truth c.name = true ∧ hashable c.name = true ∧ call = .add c ∧ ¬ AddedAny calls c.name := by
  constructor
  · rintro ⟨h1, h2, pre, post, he, hn⟩
    rcases List.eq_nil_or_concat post with rfl | ⟨post', x, rfl⟩
    · have h := List.append_inj' he rfl
      obtain rfl := h.1
      have h' := h.2
      simp only [List.cons.injEq, and_true] at h'
      exact .inr ⟨h1, h2, h', hn⟩
    · have he' : calls ++ [call] = (pre ++ .add c :: post') ++ [x] := by simpa using he
      have h := List.append_inj' he' rfl
      exact .inl ⟨h1, h2, pre, post', h.1, hn⟩
  · rintro (⟨h1, h2, pre, post, rfl, hn⟩ | ⟨h1, h2, rfl, hn⟩)
    · exact ⟨h1, h2, pre, post ++ [call], by simp, hn⟩
    · exact ⟨h1, h2, calls, [], rfl, hn⟩

/-- The invariant of reachable tables. -/
structure AInv (calls : List (AnyCall N ν)) (t : AnyTable N ν) : Prop where
  nodup : (t.symbols.map (·.1)).Nodup
  keys : ∀ n, n ∈ t.symbols.map (·.1) ↔ AddedAny calls n
  undefs : t.undefs = (t.symbols.filter fun p => !p.2.isValid).map (·.1)
  bare : ∀ n, n ∈ t.undefs ↔ ∃ c, DefinesAny calls c ∧ c.name = n ∧ c.value = none

omit [DecidableEq N] [PyNames N] in
theorem anyInit_valid (c : AnyAdd N ν) :
    (AnyEntry.init c.name c.value c.symtype c.file c.line c.segment c.subsegment).isValid =
      c.value.isSome := by
  unfold AnyEntry.init AnyEntry.isValid
  split <;> simp

omit [PyNames N] in
theorem anyRef_invalid (d : Dict N (AnyEntry N ν)) (n : N) (r : Str) (e : AnyEntry N ν)
    (h : dget d n = some e) :
    ((dset d n (e.addReference r)).filter fun p => !p.2.isValid).map (·.1) =
      (d.filter fun p => !p.2.isValid).map (·.1) := by
  induction d with
  | nil => cases h
  | cons p d ih =>
    obtain ⟨k, v⟩ := p
    simp only [dget] at h
    simp only [dset]
    split at h
    · rename_i hk
      cases h
      rw [if_pos hk]
      have : (e.addReference r).isValid = e.isValid := rfl
      simp only [List.filter_cons, this]
      split <;> simp
    · rename_i hk
      rw [if_neg hk]
      simp only [List.filter_cons]
      split
      · simp [ih h]
      · exact ih h

theorem AInv.entry {calls : List (AnyCall N ν)} {t : AnyTable N ν} (h : AInv calls t) :
    ∀ n ∈ t.undefs, ∃ e, dget t.symbols n = some e ∧ e.isValid = false := by
  intro n hn
  rw [h.undefs] at hn
  obtain ⟨p, hp, rfl⟩ := List.mem_map.1 hn
  obtain ⟨h1, h2⟩ := List.mem_filter.1 hp
  exact ⟨p.2, dget_of_mem h.nodup h1, by simpa using h2⟩

theorem anyPrune_keep (d : Dict N (AnyEntry N ν)) (l : List N)
    (h : ∀ n ∈ l, ∃ e, dget d n = some e ∧ e.isValid = false) (i : Nat) :
    AnyTable.pruneLoop d i l = (l, .ok ()) := by
  generalize hm : l.length - i = m
  induction m generalizing i with
  | zero => rw [AnyTable.pruneLoop, dif_neg (by omega)]
  | succ m ih =>
    have hi : i < l.length := by omega
    obtain ⟨e, he, hv⟩ := h l[i] (List.getElem_mem hi)
    rw [AnyTable.pruneLoop, dif_pos hi, he]
    simp only [hv]
    exact ih (i + 1) (by omega)

theorem AInv.prune {calls : List (AnyCall N ν)} {t : AnyTable N ν} (h : AInv calls t) :
    t.pruneUndefines = (t, .ok ()) := by
  unfold AnyTable.pruneUndefines
  rw [anyPrune_keep _ _ h.entry]

omit [DecidableEq N] in
theorem formatName_eq (n : N) : (Sayable n → formatName n = .ok ()) ∧
    (¬ Sayable n → formatName n = .error .typeError) := by
  unfold formatName Sayable
  cases h : tupleLength n with
  | none => simp
  | some k => by_cases hk : k = 1 <;> simp [hk]

omit [DecidableEq N] in
theorem formatAll_eq (l : List N) : ((∀ n ∈ l, Sayable n) → ∃ r, l.mapM formatName = .ok r) ∧
    ((∃ n ∈ l, ¬ Sayable n) → l.mapM formatName = .error .typeError) := by
  induction l with
  | nil => exact ⟨fun _ => ⟨[], by rw [List.mapM_nil]; rfl⟩, by simp⟩
  | cons n l ih =>
    by_cases hn : Sayable n
    · have h1 := (formatName_eq n).1 hn
      constructor
      · intro h
        obtain ⟨r, hr⟩ := ih.1 fun m hm => h m (List.mem_cons_of_mem _ hm)
        exact ⟨() :: r, by rw [List.mapM_cons, h1, hr]; rfl⟩
      · rintro ⟨m, hm, hs⟩
        rcases List.mem_cons.1 hm with rfl | hm
        · exact absurd hn hs
        · rw [List.mapM_cons, h1, ih.2 ⟨m, hm, hs⟩]; rfl
    · have h1 := (formatName_eq n).2 hn
      constructor
      · intro h
        exact absurd (h n (by simp)) hn
      · intro _
        rw [List.mapM_cons, h1]; rfl

theorem AInv.resolve {calls : List (AnyCall N ν)} {t : AnyTable N ν} (h : AInv calls t) (m : Int) :
    (t.resolve m).1 = t ∧
    ((0 < m ∧ ∃ n ∈ t.undefs, ¬ Sayable n) → (t.resolve m).2 = .error .typeError) ∧
    (¬ (0 < m ∧ ∃ n ∈ t.undefs, ¬ Sayable n) → (t.resolve m).2 = .ok ()) := by
  unfold AnyTable.resolve
  by_cases hm : m ≤ 0
  · have h0 : m.toNat = 0 := by omega
    rw [h0]
    exact ⟨rfl, fun h' => absurd h'.1 (by omega), fun _ => rfl⟩
  · obtain ⟨k, hk⟩ : ∃ k, m.toNat = k + 1 := ⟨m.toNat - 1, by omega⟩
    rw [hk, AnyTable.resolveLoop]
    by_cases hu : t.undefs.length = 0
    · rw [if_pos hu]
      have hu' : t.undefs = [] := List.length_eq_zero_iff.1 hu
      exact ⟨rfl, fun ⟨_, n, hn, _⟩ => (by rw [hu'] at hn; cases hn), fun _ => rfl⟩
    · rw [if_neg hu]
      by_cases hs : ∃ n ∈ t.undefs, ¬ Sayable n
      · rw [(formatAll_eq t.undefs).2 hs]
        exact ⟨rfl, fun _ => rfl, fun h' => absurd ⟨by omega, hs⟩ h'⟩
      · have hall : ∀ n ∈ t.undefs, Sayable n := fun n hn => by
          by_contra hc; exact hs ⟨n, hn, hc⟩
        obtain ⟨r, hr⟩ := (formatAll_eq t.undefs).1 hall
        rw [hr]
        simp only [h.prune, if_true]
        exact ⟨trivial, fun h' => absurd h'.2 hs, fun _ => trivial⟩

omit [DecidableEq N] in
theorem ainv_init : AInv ([] : List (AnyCall N ν)) AnyTable.init := by
  refine ⟨List.nodup_nil, fun n => ?_, rfl, fun n => ?_⟩
  · simp [AnyTable.init, AddedAny]
  · simp [AnyTable.init, DefinesAny]

omit [DecidableEq N] in
/-- A call that adds nothing changes neither what is added nor what is defined. -/
theorem AInv.other {calls : List (AnyCall N ν)} {t : AnyTable N ν} (h : AInv calls t)
    {call : AnyCall N ν}
    (hc : ∀ c, call = .add c → truth c.name = true → hashable c.name = true → AddedAny calls c.name) :
    AInv (calls ++ [call]) t := by
  refine ⟨h.nodup, fun n => ?_, h.undefs, fun n => ?_⟩
  · rw [h.keys, added_snoc]
    refine ⟨.inl, ?_⟩
    rintro (h' | ⟨h1, h2, c, rfl, rfl⟩)
    · exact h'
    · exact hc c rfl h1 h2
  · rw [h.bare]
    refine exists_congr fun c => and_congr_left fun _ => ?_
    rw [defines_snoc]
    refine ⟨.inl, ?_⟩
    rintro (h' | ⟨h1, h2, rfl, hn⟩)
    · exact h'
    · exact absurd (hc c rfl h1 h2) hn

theorem AInv.step {calls : List (AnyCall N ν)} {t : AnyTable N ν} (h : AInv calls t)
    (call : AnyCall N ν) : AInv (calls ++ [call]) (call.run t).1 := by
  cases call with
  | add c =>
    simp only [AnyCall.run, AnyTable.add]
    by_cases ht : truth c.name = true
    · by_cases hh : hashable c.name = true
      · rw [if_pos ht, if_pos hh]
        by_cases hd : (dget t.symbols c.name).isSome = true
        · rw [if_pos hd]
          exact h.other fun c' hc' _ _ => by
            cases hc'
            exact (h.keys _).1 (dget_isSome.1 hd)
        · rw [if_neg hd]
          have hno : dget t.symbols c.name = none := by
            cases hg : dget t.symbols c.name with
            | none => rfl
            | some e => rw [hg] at hd; exact absurd rfl hd
          have hna : ¬ AddedAny calls c.name := fun h' => dget_none.1 hno ((h.keys _).2 h')
          refine ⟨dset_nodup h.nodup _ _, fun n => ?_, ?_, fun n => ?_⟩
          · rw [dset_mem_keys, h.keys, added_snoc]
            constructor
            · rintro (rfl | h')
              · exact .inr ⟨ht, hh, c, rfl, rfl⟩
              · exact .inl h'
            · rintro (h' | ⟨_, _, c', hc', rfl⟩)
              · exact .inr h'
              · cases hc'; exact .inl rfl
          · simp only [dset_new hno, List.filter_append, List.map_append, ← h.undefs, List.filter_cons,
              List.filter_nil, anyInit_valid]
            cases c.value <;> simp
          · have hcase : ∀ n, (∃ c', DefinesAny (calls ++ [.add c]) c' ∧ c'.name = n ∧ c'.value = none) ↔
                n ∈ t.undefs ∨ c.name = n ∧ c.value = none := by
              intro n
              rw [h.bare]
              constructor
              · rintro ⟨c', hd', h1, h2⟩
                rcases (defines_snoc _ _ _).1 hd' with h' | ⟨_, _, hc', _⟩
                · exact .inl ⟨c', h', h1, h2⟩
                · cases hc'; exact .inr ⟨h1, h2⟩
              · rintro (⟨c', h', h1, h2⟩ | ⟨h1, h2⟩)
                · exact ⟨c', (defines_snoc _ _ _).2 (.inl h'), h1, h2⟩
                · exact ⟨c, (defines_snoc _ _ _).2 (.inr ⟨ht, hh, rfl, hna⟩), h1, h2⟩
            rw [hcase]
            cases hv : c.value with
            | none => simp [eq_comm]
            | some v => simp
      · rw [if_pos ht, if_neg hh]
        exact h.other fun c' hc' _ h2 => by cases hc'; exact absurd h2 hh
    · rw [if_neg ht]
      exact h.other fun c' hc' h1 _ => by cases hc'; exact absurd h1 ht
  | ref n r =>
    simp only [AnyCall.run, AnyTable.addReference, AnyTable.lookup]
    by_cases hh : hashable n = true
    · rw [if_pos hh]
      cases hg : dget t.symbols n with
      | none => exact h.other fun c' hc' => by cases hc'
      | some e =>
        have h' : AInv calls { t with symbols := dset t.symbols n (e.addReference r) } := by
          have hk : (dset t.symbols n (e.addReference r)).map (·.1) = t.symbols.map (·.1) := by
            rw [dset_keys, if_pos (dget_isSome.1 (by rw [hg]; rfl))]
          refine ⟨?_, fun m => ?_, ?_, h.bare⟩
          · simp only [hk]; exact h.nodup
          · simp only [hk]; exact h.keys m
          · rw [anyRef_invalid _ _ _ _ hg]; exact h.undefs
        exact h'.other fun c' hc' => by cases hc'
    · rw [if_neg hh]
      exact h.other fun c' hc' => by cases hc'
  | update n v s =>
    have : ((AnyCall.update n v s).run t).1 = t := by
      simp only [AnyCall.run, AnyTable.update]; split <;> rfl
    rw [this]
    exact h.other fun c' hc' => by cases hc'
  | prune =>
    have : ((AnyCall.prune).run t).1 = t := by simp only [AnyCall.run, h.prune]
    rw [this]
    exact h.other fun c' hc' => by cases hc'
  | resolve m =>
    have : ((AnyCall.resolve m).run t).1 = t := (h.resolve m).1
    rw [this]
    exact h.other fun c' hc' => by cases hc'

theorem anyAfter_snoc (calls : List (AnyCall N ν)) (call : AnyCall N ν) :
    anyAfter (calls ++ [call]) = (call.run (anyAfter calls)).1 := by
  simp [anyAfter, List.foldl_append]

theorem ainv_after (calls : List (AnyCall N ν)) : AInv calls (anyAfter calls) := by
  induction calls using List.reverseRecOn with
  | nil => exact ainv_init
  | append_singleton calls call ih => rw [anyAfter_snoc]; exact ih.step call

/-- C237: how a call ends after any calls: it fails exactly in the cases named, and then it has changed
nothing. -/
theorem C237_ends_partial (calls : List (AnyCall N ν)) (call : AnyCall N ν) :
    (∀ e, (call.run (anyAfter calls)).2 = .error e ↔ FailsAny calls call e) ∧
    ∀ e, FailsAny calls call e → (call.run (anyAfter calls)).1 = anyAfter calls := by
  have h := ainv_after calls
  generalize anyAfter calls = t at h
  have hdef : ∀ n, (dget t.symbols n).isSome = true ↔ AddedAny calls n := fun n => by
    rw [dget_isSome, h.keys]
  cases call with
  | add c =>
    simp only [AnyCall.run, AnyTable.add, FailsAny]
    by_cases ht : truth c.name = true
    · by_cases hh : hashable c.name = true
      · rw [if_pos ht, if_pos hh]
        by_cases hd : (dget t.symbols c.name).isSome = true
        · have ha := (hdef _).1 hd
          rw [if_pos hd]
          by_cases hs : Sayable c.name
          · rw [(formatName_eq _).1 hs]
            simp [hh, hs]
          · rw [(formatName_eq _).2 hs]
            refine ⟨fun e => ⟨fun he => ?_, fun he => by rw [he.1]⟩, fun _ _ => rfl⟩
            cases he
            exact ⟨rfl, ht, .inr ⟨ha, hs⟩⟩
        · have ha : ¬ AddedAny calls c.name := fun h' => hd ((hdef _).2 h')
          rw [if_neg hd]
          simp [hh, ha]
      · rw [if_pos ht, if_neg hh]
        simp [ht, hh, eq_comm]
    · rw [if_neg ht]
      simp [ht]
  | ref n r =>
    simp only [AnyCall.run, AnyTable.addReference, AnyTable.lookup, FailsAny]
    by_cases hh : hashable n = true
    · rw [if_pos hh]
      have := hdef n
      cases hg : dget t.symbols n with
      | none =>
        have ha : ¬ AddedAny calls n := fun h' => by
          have := this.2 h'; rw [hg] at this; cases this
        simp [hh, ha, eq_comm]
      | some e =>
        have ha : AddedAny calls n := this.1 (by rw [hg]; rfl)
        simp [hh, ha]
    · rw [if_neg hh]
      simp [hh, eq_comm]
  | update n v s =>
    simp only [AnyCall.run, AnyTable.update, FailsAny]
    by_cases ht : truth n = true
    · simp [ht, eq_comm]
    · simp [ht]
  | prune =>
    simp only [AnyCall.run, h.prune, FailsAny]
    simp
  | resolve m =>
    obtain ⟨h1, h2, h3⟩ := h.resolve m
    simp only [AnyCall.run, FailsAny]
    have hiff : (∃ c, DefinesAny calls c ∧ c.value = none ∧ ¬ Sayable c.name) ↔
        ∃ n ∈ t.undefs, ¬ Sayable n := by
      constructor
      · rintro ⟨c, hd, hv, hs⟩
        exact ⟨c.name, (h.bare _).2 ⟨c, hd, rfl, hv⟩, hs⟩
      · rintro ⟨n, hn, hs⟩
        obtain ⟨c, hd, rfl, hv⟩ := (h.bare n).1 hn
        exact ⟨c, hd, hv, hs⟩
    rw [hiff]
    refine ⟨fun e => ?_, fun _ _ => h1⟩
    by_cases hc : 0 < m ∧ ∃ n ∈ t.undefs, ¬ Sayable n
    · rw [h2 hc]
      constructor
      · intro he; cases he; exact ⟨rfl, hc⟩
      · rintro ⟨rfl, _⟩; rfl
    · rw [h3 hc]
      constructor
      · intro he; cases he
      · rintro ⟨_, h'⟩; exact absurd h' hc

omit [PyNames N] in
theorem dget_spelled (g : N → Str) (f : AnyEntry N ν → SymbolTableEntry ν) (d : Dict N (AnyEntry N ν))
    (n : N) (h : ∀ m ∈ d.map (·.1), g m = g n → m = n) :
    dget (d.map fun p => (g p.1, f p.2)) (g n) = (dget d n).map f := by
  induction d with
  | nil => rfl
  | cons p d ih =>
    obtain ⟨k, v⟩ := p
    have ih' := ih fun m hm => h m (List.mem_cons_of_mem _ hm)
    simp only [List.map_cons, dget]
    by_cases hk : k = n
    · subst hk; simp
    · rw [if_neg hk, if_neg fun hg => hk (h k (by simp) hg), ih']

omit [PyNames N] in
theorem dset_spelled (g : N → Str) (f : AnyEntry N ν → SymbolTableEntry ν) (d : Dict N (AnyEntry N ν))
    (n : N) (e : AnyEntry N ν) (h : ∀ m ∈ d.map (·.1), g m = g n → m = n) :
    dset (d.map fun p => (g p.1, f p.2)) (g n) (f e) = (dset d n e).map fun p => (g p.1, f p.2) := by
  induction d with
  | nil => rfl
  | cons p d ih =>
    obtain ⟨k, v⟩ := p
    have ih' := ih fun m hm => h m (List.mem_cons_of_mem _ hm)
    simp only [List.map_cons, dset]
    by_cases hk : k = n
    · subst hk; simp
    · rw [if_neg hk, if_neg fun hg => hk (h k (by simp) hg), ih']; rfl

/-- C237: whatever the names are, the table is after any calls that of the same calls with strings for
names: calls with names that cannot be hashed do nothing, and names that are false are treated as the
empty string. -/
theorem C237_renamed (g : N → Str) (calls : List (AnyCall N ν)) (hg : Spells g calls) :
    (anyAfter calls).rename g = after (calls.filterMap (AnyCall.rename g)) := by
  induction calls using List.reverseRecOn with
  | nil => rfl
  | append_singleton calls call ih =>
    have hpre : Spells g calls :=
      ⟨fun c hc d hd => hg.apart c (List.mem_append_left _ hc) d (List.mem_append_left _ hd),
        fun c hc => hg.empty c (List.mem_append_left _ hc)⟩
    have ih := ih hpre
    have hi := ainv_after calls
    have ht := tinv_after (calls.filterMap (AnyCall.rename g))
    have hafter : ∀ c, after (calls.filterMap (AnyCall.rename g) ++ [c]) =
        Call.run (after (calls.filterMap (AnyCall.rename g))) c := by
      intro c; simp [after, List.foldl_append]
    have hmem : call ∈ calls ++ [call] := by simp
    have hinj : ∀ n, call.name? = some n → hashable n = true →
        ∀ m ∈ (anyAfter calls).symbols.map (·.1), g m = g n → m = n := by
      intro n hn hh m hm he
      obtain ⟨hmt, hmh, c, hc, rfl⟩ := (hi.keys m).1 hm
      have hcm : AnyCall.add c ∈ calls ++ [call] := List.mem_append_left _ hc
      by_cases htn : truth n = true
      · exact hg.apart _ hcm _ hmem _ _ rfl hn hmh hh hmt htn he
      · have h0 := (hg.empty _ hmem n hn hh).2 (by simpa using htn)
        have h1 := (hg.empty _ hcm c.name rfl hmh).1 (he.trans h0)
        rw [h1] at hmt; cases hmt
    rw [anyAfter_snoc, List.filterMap_append]
    cases call with
    | add c =>
      by_cases hh : hashable c.name = true
      · have hr : [AnyCall.add c].filterMap (AnyCall.rename g) =
            [.add ⟨g c.name, c.file, c.line, c.value, c.symtype, c.segment, c.subsegment⟩] := by
          simp [AnyCall.rename, hh]
        rw [hr, hafter, ← ih]
        have hinj' := hinj c.name rfl hh
        have he := hg.empty _ hmem c.name rfl hh
        generalize anyAfter calls = t at hinj' ⊢
        have hget : dget (t.rename g).symbols (g c.name) = (dget t.symbols c.name).map (·.rename g) :=
          dget_spelled g (·.rename g) _ _ hinj'
        simp only [AnyCall.run, AnyTable.add, Call.run, SymbolTable.add, hget, Option.isSome_map]
        by_cases htn : truth c.name = true
        · have hne : g c.name ≠ [] := fun h0 => by rw [he.1 h0] at htn; cases htn
          rw [if_pos htn, if_pos hh, if_neg hne]
          by_cases hd : (dget t.symbols c.name).isSome = true
          · rw [if_pos hd, if_pos hd]
          · rw [if_neg hd, if_neg hd]
            have hinit : SymbolTableEntry.init (g c.name) c.value c.symtype c.file c.line c.segment
                c.subsegment = (AnyEntry.init c.name c.value c.symtype c.file c.line c.segment
                  c.subsegment).rename g := by
              unfold SymbolTableEntry.init AnyEntry.init
              split <;> rfl
            rw [hinit]
            unfold AnyTable.rename
            rw [dset_spelled g (·.rename g) _ _ _ hinj']
            cases c.value <;> simp
        · rw [if_neg htn, if_pos (he.2 (by simpa using htn))]
      · have hr : [AnyCall.add c].filterMap (AnyCall.rename g) = [] := by
          simp [AnyCall.rename, hh]
        rw [hr, List.append_nil, ← ih]
        simp only [AnyCall.run, AnyTable.add, if_neg hh]
        split <;> rfl
    | ref n r =>
      by_cases hh : hashable n = true
      · have hr : [(AnyCall.ref n r : AnyCall N ν)].filterMap (AnyCall.rename g) = [.ref (g n) r] := by
          simp [AnyCall.rename, hh]
        rw [hr, hafter, ← ih]
        have hinj' := hinj n rfl hh
        generalize anyAfter calls = t at hinj' ⊢
        have hget : dget (t.rename g).symbols (g n) = (dget t.symbols n).map (·.rename g) :=
          dget_spelled g (·.rename g) _ _ hinj'
        simp only [AnyCall.run, AnyTable.addReference, AnyTable.lookup, if_pos hh, Call.run,
          SymbolTable.addReference, hget]
        cases hd : dget t.symbols n with
        | none => rfl
        | some e =>
          have hs := dset_spelled g (·.rename g) t.symbols n (e.addReference r) hinj'
          unfold AnyTable.rename
          simp only [Option.map_some]
          rw [← hs]
          rfl
      · have hr : [(AnyCall.ref n r : AnyCall N ν)].filterMap (AnyCall.rename g) = [] := by
          simp [AnyCall.rename, hh]
        rw [hr, List.append_nil, ← ih]
        simp only [AnyCall.run, AnyTable.addReference, AnyTable.lookup, if_neg hh]
    | update n v s =>
      have hr : [AnyCall.update n v s].filterMap (AnyCall.rename g) = [.update (g n) v s] := rfl
      have h1 : ((AnyCall.update n v s).run (anyAfter calls)).1 = anyAfter calls := by
        simp only [AnyCall.run, AnyTable.update]; split <;> rfl
      rw [hr, hafter, ← ih, h1]
      simp only [Call.run, SymbolTable.update]
      split
      · rfl
      · split <;> rfl
    | prune =>
      have hr : [(AnyCall.prune : AnyCall N ν)].filterMap (AnyCall.rename g) = [.prune] := rfl
      have h1 : ((AnyCall.prune : AnyCall N ν).run (anyAfter calls)).1 = anyAfter calls := by
        simp only [AnyCall.run, hi.prune]
      rw [hr, hafter, h1, ih]
      simp only [Call.run, ht.prune]
    | resolve m =>
      have hr : [(AnyCall.resolve m : AnyCall N ν)].filterMap (AnyCall.rename g) = [.resolve m] := rfl
      have h1 : ((AnyCall.resolve m : AnyCall N ν).run (anyAfter calls)).1 = anyAfter calls :=
        (hi.resolve m).1
      rw [hr, hafter, h1, ih]
      simp only [Call.run, ht.resolve]

/-- C237: the names of any calls can be written as strings in this way. -/
theorem C237_spelled (calls : List (AnyCall N ν)) : ∃ g : N → Str, Spells g calls := by
  let names := calls.filterMap AnyCall.name?
  refine ⟨fun n => if truth n = true then List.replicate (names.idxOf n + 1) 'X' else [], ?_, ?_⟩
  · intro c hc d hd a b ha hb _ _ hta htb he
    simp only [hta, htb, if_true] at he
    have hl := congrArg List.length he
    simp only [List.length_replicate, Nat.add_right_cancel_iff] at hl
    have hma : a ∈ names := List.mem_filterMap.2 ⟨c, hc, ha⟩
    exact (List.idxOf_inj hma).1 hl
  · intro c _ a _ _
    by_cases h : truth a = true
    · simp [h, List.replicate_succ]
    · simp [h]

/-- Strings as names. -/
instance strNames : PyNames Str where
  truth s := s ≠ []
  hashable _ := true
  tupleLength _ := none

/-- C237: for strings it is the table of the other properties, and `add`, `pruneUndefines` and `resolve` do
not fail. -/
theorem C237_strings (calls : List (AnyCall Str ν)) :
    (anyAfter calls).rename id = after (calls.filterMap (AnyCall.rename id)) ∧
    ∀ call : AnyCall Str ν, ((∃ c, call = .add c) ∨ call = .prune ∨ ∃ m, call = .resolve m) →
      (call.run (anyAfter calls)).2 = .ok () := by
  refine ⟨C237_renamed id calls ⟨fun _ _ _ _ _ _ _ _ _ _ _ _ h => h, fun _ _ a _ _ => ?_⟩,
    fun call hc => ?_⟩
  · simp [truth]
  · have hs : ∀ n : Str, Sayable n := fun n k hk => by cases hk
    cases hr : (call.run (anyAfter calls)).2 with
    | ok u => rfl
    | error e =>
      have hf := ((C237_ends_partial calls call).1 e).1 hr
      rcases hc with ⟨c, rfl⟩ | rfl | ⟨m, rfl⟩
      · obtain ⟨_, _, h | h⟩ := hf
        · cases h
        · exact absurd (hs _) h.2
      · exact hf.elim
      · obtain ⟨_, _, c, _, _, h⟩ := hf
        exact absurd (hs _) h

/-! #### Concrete names -/

/-- Numbers, strings, pairs of numbers and lists of numbers as names. -/
inductive SomeName where
  /-- an int -/
  | int (n : Int)
  /-- a str -/
  | str (s : Str)
  /-- a tuple of two ints -/
  | pair (a b : Int)
  /-- a list of ints -/
  | list (l : List Int)
  deriving DecidableEq, Repr

instance : PyNames SomeName where
  truth
    | .int n => n ≠ 0
    | .str s => s ≠ []
    | .pair _ _ => true
    | .list l => l ≠ []
  hashable
    | .list _ => false
    | _ => true
  tupleLength
    | .pair _ _ => some 2
    | _ => none

/-- `t.add(name, "f", 1)` -/
def plainAdd (n : SomeName) : AnyCall SomeName Int := .add ⟨n, py "f", 1, none, none, none, none⟩

/-- C237 fails: adding a name that is a pair a second time is a TypeError, where it is a message for other
names. -/
theorem C237_refuted : ¬ C237_statement := by
  intro h
  have h' := h SomeName Int inferInstance inferInstance [plainAdd (.pair 1 2)] (plainAdd (.pair 1 2))
    (by rintro c hc n hn
        simp only [List.mem_cons, List.not_mem_nil, or_false, or_self] at hc
        subst hc; cases hn; rfl) (.inl ⟨_, rfl⟩)
  exact absurd h' (by decide)

/-- C237 fails: with a pair among the undefined names, `resolve` is a TypeError. -/
theorem C237_refuted_resolve : ¬ C237_statement := by
  intro h
  have h' := h SomeName Int inferInstance inferInstance [plainAdd (.str (py "A")), plainAdd (.pair 1 2)] (.resolve 10)
    (by rintro c hc n hn
        simp only [List.mem_cons, List.not_mem_nil, or_false] at hc
        rcases hc with rfl | rfl | rfl
        · cases hn
        · cases hn; rfl
        · cases hn; rfl) (.inr (.inr ⟨_, rfl⟩))
  exact absurd h' (by decide +kernel)

/-- Calls with names of several types: the number 0 and the list add nothing, the number 7 and the string
are two symbols. -/
example : let calls := [plainAdd (.int 0), plainAdd (.int 7), plainAdd (.list [1]), plainAdd (.str (py "7")),
      .ref (.int 7) (py "r"), .ref (.list [1]) (py "r"), plainAdd (.int 7)]
    (anyAfter calls).undefs = [.int 7, .str (py "7")] ∧
    ((anyAfter calls).symbols.map fun p => (p.1, p.2.references)) =
      [(.int 7, [py "r"]), (.str (py "7"), [])] ∧
    ((plainAdd (.list [1])).run (anyAfter calls)).2 = .error .typeError ∧
    ((plainAdd (.int 7)).run (anyAfter calls)).2 = .ok () := by
  decide

end H800
