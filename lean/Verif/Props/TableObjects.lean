import Verif.Model.TableObjects
import Verif.Props.Passes

/-!
Property C236: symbol tables whose dict and lists a caller changes.
-/

namespace H800

open Spec

variable {ν : Type}

namespace TableObj

/-- The places named by the dict exist. -/
structure Sound (t : TableObj ν) : Prop where
  places : ∀ p ∈ t.symbols, p.2 < t.heap.length
  keys : (t.symbols.map (·.1)).Nodup

end TableObj

open TableObj

theorem seen_get (t : TableObj ν) (n : Str) :
    dget t.seen.symbols n = (dget t.symbols n).map t.entry := by
  unfold TableObj.seen
  induction t.symbols with
  | nil => rfl
  | cons p d ih =>
    rw [List.map_cons, dget, dget]
    split
    · rfl
    · exact ih

theorem entry_append (t : TableObj ν) (e : SymbolTableEntry ν) {r : Nat} (h : r < t.heap.length)
    (s : Dict Str Nat) (u : List Str) :
    (TableObj.mk (t.heap ++ [e]) s u).entry r = t.entry r := by
  unfold TableObj.entry
  rw [List.getElem?_append_left h]

theorem entry_setRefs (t : TableObj ν) (r k : Nat) (f : List Str → List Str)
    (h : k < t.heap.length) :
    (t.setRefs r f).entry k =
      if r = k then { t.entry k with references := f (t.entry k).references } else t.entry k := by
  unfold TableObj.entry TableObj.setRefs
  simp only [List.getElem?_modify, List.getElem?_eq_getElem h]
  split <;> simp

theorem filter_get (d : Dict Str Nat) (n m : Str) :
    dget (d.filter fun p => p.1 ≠ n) m = if m = n then none else dget d m := by
  induction d with
  | nil => simp [dget]
  | cons p d ih =>
    obtain ⟨k, v⟩ := p
    rw [List.filter_cons]
    by_cases hk : k = n
    · subst hk
      simp only [ne_eq, not_true_eq_false, decide_false, Bool.false_eq_true, if_false]
      rw [ih, dget]
      by_cases hm : m = k
      · simp [hm]
      · rw [if_neg hm, if_neg hm, if_neg (fun e => hm e.symm)]
    · simp only [ne_eq, hk, not_false_eq_true, decide_true, if_true]
      rw [dget, dget, ih]
      by_cases hkm : k = m
      · subst hkm; simp [hk]
      · simp [hkm]

theorem sound_step {t : TableObj ν} (h : t.Sound) (a : TableAct ν) :
    (t.step a).1.Sound ∧ t.heap.length ≤ (t.step a).1.heap.length := by
  have put : ∀ (hp : List (SymbolTableEntry ν)) (n : Str) (r : Nat) (u : List Str),
      t.heap.length ≤ hp.length → r < hp.length → (TableObj.mk hp (dset t.symbols n r) u).Sound := by
    intro hp n r u hle hr
    refine ⟨?_, dset_nodup h.keys n r⟩
    intro p hpm
    have hg := dget_of_mem (dset_nodup h.keys n r) (k := p.1) (v := p.2) hpm
    rw [dget_dset] at hg
    split at hg
    · cases hg; exact hr
    · exact lt_of_lt_of_le (h.places _ (dget_mem hg)) hle
  have hrefs : ∀ (r : Nat) (f : List Str → List Str), (t.setRefs r f).Sound ∧
      t.heap.length ≤ (t.setRefs r f).heap.length := by
    intro r f
    have : (t.setRefs r f).heap.length = t.heap.length := by
      unfold TableObj.setRefs; simp
    exact ⟨⟨fun p hp => by rw [this]; exact h.places p hp, h.keys⟩, this.ge⟩
  cases a with
  | call c =>
    cases c with
    | add c =>
      rw [TableObj.step]
      split
      · exact ⟨h, le_refl _⟩
      · split
        · exact ⟨h, le_refl _⟩
        · exact ⟨put _ _ _ _ (by simp) (by simp), by simp⟩
    | ref n r =>
      rw [TableObj.step]
      split
      · exact ⟨h, le_refl _⟩
      · exact hrefs _ (· ++ [r])
    | update n v s => exact ⟨h, le_refl _⟩
    | prune => exact ⟨⟨h.places, h.keys⟩, le_refl _⟩
    | resolve m => exact ⟨⟨h.places, h.keys⟩, le_refl _⟩
  | make c =>
    exact ⟨⟨fun p hp => by
      have := h.places p hp
      show p.2 < (t.heap ++ [_]).length
      simp; omega, h.keys⟩, by show t.heap.length ≤ (t.heap ++ [_]).length; simp⟩
  | put n r =>
    rw [TableObj.step]
    split
    · rename_i hr
      exact ⟨put _ _ _ _ (le_refl _) hr, le_refl _⟩
    · exact ⟨h, le_refl _⟩
  | del n =>
    rw [TableObj.step]
    split
    · exact ⟨⟨fun p hp => h.places p (List.mem_of_mem_filter hp),
        h.keys.sublist (List.filter_sublist.map _)⟩, le_refl _⟩
    · exact ⟨h, le_refl _⟩
  | names f => exact ⟨⟨h.places, h.keys⟩, le_refl _⟩
  | refs r f => exact hrefs r f

theorem sound_init : (TableObj.init : TableObj ν).Sound := ⟨by simp [TableObj.init], by simp [TableObj.init]⟩

theorem sound_run {t : TableObj ν} (h : t.Sound) (acts : List (TableAct ν)) :
    (t.run acts).Sound ∧ t.heap.length ≤ (t.run acts).heap.length := by
  induction acts generalizing t with
  | nil => exact ⟨h, le_refl _⟩
  | cons a acts ih =>
    obtain ⟨h1, h2⟩ := sound_step h a
    obtain ⟨h3, h4⟩ := ih h1
    exact ⟨h3, h2.trans h4⟩

/-- One step changes at most the references of an entry. -/
theorem entry_step {t : TableObj ν} (a : TableAct ν) {r : Nat} (hr : r < t.heap.length) :
    ∃ l, (t.step a).1.entry r = { t.entry r with references := l } := by
  have hrefs : ∀ (k : Nat) (f : List Str → List Str),
      ∃ l, (t.setRefs k f).entry r = { t.entry r with references := l } := by
    intro k f
    rw [entry_setRefs t k r f hr]
    split
    · exact ⟨_, rfl⟩
    · exact ⟨_, rfl⟩
  cases a with
  | call c =>
    cases c with
    | add c =>
      rw [TableObj.step]
      split
      · exact ⟨_, rfl⟩
      · split
        · exact ⟨_, rfl⟩
        · exact ⟨_, entry_append t _ hr _ _⟩
    | ref n k =>
      rw [TableObj.step]
      split
      · exact ⟨_, rfl⟩
      · exact hrefs _ _
    | update n v s => exact ⟨_, rfl⟩
    | prune => exact ⟨_, rfl⟩
    | resolve m => exact ⟨_, rfl⟩
  | make c => exact ⟨_, entry_append t _ hr _ _⟩
  | put n k =>
    rw [TableObj.step]
    split <;> exact ⟨_, rfl⟩
  | del n =>
    rw [TableObj.step]
    split <;> exact ⟨_, rfl⟩
  | names f => exact ⟨_, rfl⟩
  | refs k f => exact hrefs k f

/-- C236: whatever calls and changes follow, an entry keeps its name, its value, its type and where it is
defined; only its references change. In particular it is valid then if and only if it was. -/
theorem C236_entries {t : TableObj ν} (ht : t.Sound) (acts : List (TableAct ν)) {r : Nat}
    (hr : r < t.heap.length) :
    (∃ l, (t.run acts).entry r = { t.entry r with references := l }) ∧
    ((t.run acts).entry r).isValid = (t.entry r).isValid := by
  have key : ∃ l, (t.run acts).entry r = { t.entry r with references := l } := by
    induction acts generalizing t with
    | nil => exact ⟨_, rfl⟩
    | cons a acts ih =>
      obtain ⟨l, hl⟩ := entry_step (t := t) a hr
      obtain ⟨h1, h2⟩ := sound_step ht a
      obtain ⟨l', hl'⟩ := ih h1 (lt_of_lt_of_le hr h2)
      refine ⟨l', ?_⟩
      rw [show t.run (a :: acts) = ((t.step a).1).run acts from rfl, hl', hl]
  refine ⟨key, ?_⟩
  obtain ⟨l, hl⟩ := key
  rw [hl]; rfl

/-- Distinct names have distinct entries. -/
def Spread (t : TableObj ν) : Prop := (t.symbols.map (·.2)).Nodup

theorem seen_refs {t : TableObj ν} (ht : t.Sound) (hs : Spread t) {n : Str} {k : Nat} (r : Str)
    (hk : dget t.symbols n = some k) :
    (t.setRefs k (· ++ [r])).seen = (t.seen.addReference n r).1 := by
  have hg : dget t.seen.symbols n = some (t.entry k) := by rw [seen_get, hk]; rfl
  rw [SymbolTable.addReference, hg]
  dsimp only
  have main : ∀ d : Dict Str Nat, (∀ p ∈ d, p.2 < t.heap.length) → (d.map (·.2)).Nodup →
      dget d n = some k →
      d.map (fun p => (p.1, (t.setRefs k (· ++ [r])).entry p.2)) =
        dset (d.map fun p => (p.1, t.entry p.2)) n ((t.entry k).addReference r) := by
    intro d
    induction d with
    | nil => intro _ _ h; cases h
    | cons p d ih =>
      intro hp hnd h
      obtain ⟨m, j⟩ := p
      rw [List.map_cons, List.nodup_cons] at hnd
      have hj := hp (m, j) List.mem_cons_self
      rw [List.map_cons, List.map_cons, dset]
      rw [dget] at h
      by_cases hm : m = n
      · rw [if_pos hm] at h
        rw [if_pos hm]
        cases h
        congr 1
        · rw [entry_setRefs t _ _ _ hj, if_pos rfl]; rfl
        · apply List.map_congr_left
          intro q hq
          rw [entry_setRefs t _ _ _ (hp q (List.mem_cons_of_mem _ hq)), if_neg]
          intro e
          exact hnd.1 (List.mem_map.2 ⟨q, hq, e.symm⟩)
      · rw [if_neg hm] at h
        rw [if_neg hm, ih (fun q hq => hp q (List.mem_cons_of_mem _ hq)) hnd.2 h]
        rw [entry_setRefs t _ _ _ hj, if_neg]
        intro e
        exact hnd.1 (List.mem_map.2 ⟨(n, k), dget_mem h, e⟩)
  unfold TableObj.seen
  show SymbolTable.mk _ _ = SymbolTable.mk _ _
  congr 1
  exact main t.symbols ht.places hs hk

/-- C236: while nobody changes what is handed out, the table is that of the other properties. -/
theorem C236_agrees (calls : List (Call ν)) :
    ((TableObj.init : TableObj ν).run (calls.map .call)).seen = after calls := by
  have step : ∀ (t : TableObj ν), t.Sound → Spread t → ∀ c : Call ν,
      (t.step (.call c)).1.seen = c.run t.seen ∧ Spread (t.step (.call c)).1 := by
    intro t ht hs c
    cases c with
    | add c =>
      rw [TableObj.step, Call.run, SymbolTable.add]
      by_cases h1 : c.name = []
      · rw [if_pos h1, if_pos h1]; exact ⟨rfl, hs⟩
      · rw [if_neg h1, if_neg h1, seen_get]
        cases hg : dget t.symbols c.name with
        | some k => exact ⟨rfl, hs⟩
        | none =>
          simp only [Option.map_none, Option.isSome_none, Bool.false_eq_true, if_false]
          refine ⟨?_, ?_⟩
          · have hg' : dget t.seen.symbols c.name = none := by rw [seen_get, hg]; rfl
            rw [dset_new hg']
            unfold TableObj.seen
            dsimp only
            rw [dset_new hg, List.map_append]
            congr 1
            congr 1
            · apply List.map_congr_left
              intro p hp
              rw [entry_append t _ (ht.places p hp)]
            · show [(c.name, TableObj.entry _ t.heap.length)] = [_]
              unfold TableObj.entry
              simp [TableObj.newEntry]
          · unfold Spread
            dsimp only
            rw [dset_new hg, List.map_append, List.nodup_append]
            refine ⟨hs, by simp, ?_⟩
            intro a ha b hb
            simp only [List.map_cons, List.map_nil, List.mem_singleton] at hb
            obtain ⟨p, hp, rfl⟩ := List.mem_map.1 ha
            have := ht.places p hp
            omega
    | ref n r =>
      rw [TableObj.step, Call.run]
      cases hg : dget t.symbols n with
      | none =>
        have hg' : dget t.seen.symbols n = none := by rw [seen_get, hg]; rfl
        rw [SymbolTable.addReference, hg']
        exact ⟨rfl, hs⟩
      | some k =>
        refine ⟨seen_refs ht hs r hg, hs⟩
    | update n v s =>
      refine ⟨?_, hs⟩
      rw [TableObj.step, Call.run, (C66_update_partial t.seen n v s).1]
    | prune => exact ⟨rfl, hs⟩
    | resolve m =>
      refine ⟨?_, hs⟩
      rw [TableObj.step, Call.run]
      have : (t.seen.resolve m).1.symbols = t.seen.symbols := by
        unfold SymbolTable.resolve
        exact (C235_any t.seen m.toNat).1
      show SymbolTable.mk t.seen.symbols _ = _
      rw [← this]
  have all : ∀ (calls : List (Call ν)) (t : TableObj ν), t.Sound → Spread t →
      (t.run (calls.map .call)).seen = calls.foldl Call.run t.seen := by
    intro calls
    induction calls with
    | nil => intro t _ _; rfl
    | cons c calls ih =>
      intro t ht hs
      obtain ⟨h1, h2⟩ := step t ht hs c
      have := ih _ (sound_step ht (.call c)).1 h2
      rw [h1] at this
      exact this
  exact all calls TableObj.init sound_init (by simp [Spread, TableObj.init])

/-- C236: how a step ends, in any state: the calls as in the table that is seen, `del` with a KeyError for
a name that is not there, and all other changes well. -/
theorem C236_ends (t : TableObj ν) (a : TableAct ν) : (t.step a).2 =
    match a with
    | .call (.add _) => .ok ()
    | .call (.ref n r) => (t.seen.addReference n r).2
    | .call (.update n v s) => (t.seen.update n v s).2
    | .call .prune => t.seen.pruneUndefines.2
    | .call (.resolve m) => (t.seen.resolve m).2.1
    | .del n => if t.seen.lookup n = none then .error .keyError else .ok ()
    | _ => .ok () := by
  cases a with
  | call c =>
    cases c with
    | add c => rw [TableObj.step]; split <;> [rfl; (split <;> rfl)]
    | ref n r =>
      rw [TableObj.step]
      dsimp only
      rw [SymbolTable.addReference, seen_get]
      cases dget t.symbols n <;> rfl
    | _ => rfl
  | put n r => rw [TableObj.step]; split <;> rfl
  | del n =>
    rw [TableObj.step]
    dsimp only
    rw [SymbolTable.lookup, seen_get]
    cases dget t.symbols n <;> rfl
  | _ => rfl

/-- The steps after which a name may have another entry, or none. -/
def Replaces (n : Str) : TableAct ν → Prop
  | .put m _ => m = n
  | .del m => m = n
  | _ => False

theorem place_step {t : TableObj ν} {n : Str} {r : Nat} (h : dget t.symbols n = some r)
    (a : TableAct ν) (ha : ¬ Replaces n a) : dget (t.step a).1.symbols n = some r := by
  cases a with
  | call c =>
    cases c with
    | add c =>
      rw [TableObj.step]
      split
      · exact h
      · split
        · exact h
        · rename_i hn
          show dget (dset t.symbols c.name t.heap.length) n = some r
          rw [dget_dset, if_neg, h]
          rintro rfl
          rw [h] at hn
          exact hn rfl
    | ref m k =>
      rw [TableObj.step]
      split <;> exact h
    | update m v s => exact h
    | prune => exact h
    | resolve m => exact h
  | make c => exact h
  | put m k =>
    rw [TableObj.step]
    split
    · show dget (dset t.symbols m k) n = some r
      rw [dget_dset, if_neg, h]
      exact fun e => ha e.symm
    · exact h
  | del m =>
    rw [TableObj.step]
    split
    · show dget (t.symbols.filter fun p => p.1 ≠ m) n = some r
      rw [filter_get, if_neg, h]
      exact fun e => ha e.symm
    · exact h
  | names f => exact h
  | refs k f => exact h

/-- C236: an entry that a caller puts under a second name is the entry of both, whatever is done
afterwards: what is looked up is the same, references included, until one of the two names is given
another entry or taken out. -/
theorem C236_shared {t : TableObj ν} {n m : Str} {r : Nat} (hn : dget t.symbols n = some r)
    (hm : dget t.symbols m = some r) (acts : List (TableAct ν))
    (ha : ∀ a ∈ acts, ¬ Replaces n a ∧ ¬ Replaces m a) :
    (t.run acts).seen.lookup n = (t.run acts).seen.lookup m ∧
      ((t.run acts).seen.lookup n).isSome = true := by
  induction acts generalizing t with
  | nil =>
    show dget t.seen.symbols n = dget t.seen.symbols m ∧ (dget t.seen.symbols n).isSome = true
    rw [seen_get, seen_get, hn, hm]
    exact ⟨rfl, rfl⟩
  | cons a acts ih =>
    obtain ⟨h1, h2⟩ := ha a List.mem_cons_self
    exact ih (place_step hn a h1) (place_step hm a h2)
      fun b hb => ha b (List.mem_cons_of_mem _ hb)

/-- C236: of names with different entries one does not get the references of the other. -/
theorem C236_apart {t : TableObj ν} (ht : t.Sound) {n m : Str} (ref : Str)
    (h : dget t.symbols n ≠ dget t.symbols m) :
    (t.step (.call (.ref n ref))).1.seen.lookup m = t.seen.lookup m := by
  show dget (t.step (.call (.ref n ref))).1.seen.symbols m = dget t.seen.symbols m
  rw [seen_get, seen_get, TableObj.step]
  cases hn : dget t.symbols n with
  | none => rfl
  | some k =>
    show (dget t.symbols m).map (t.setRefs k _).entry = _
    cases hm : dget t.symbols m with
    | none => rfl
    | some j =>
      show some _ = some _
      rw [entry_setRefs t k j _ (ht.places _ (dget_mem hm)), if_neg]
      rintro rfl
      exact h (hn.trans hm.symm)

/-- The changes that do no harm: to the references of entries, and entries put under names that have
none. -/
def Harmless (t : TableObj ν) : TableAct ν → Prop
  | .put n _ => dget t.symbols n = none
  | .del _ => False
  | .names _ => False
  | _ => True

/-- A history of calls and such changes only. -/
def AllHarmless : TableObj ν → List (TableAct ν) → Prop
  | _, [] => True
  | t, a :: acts => Harmless t a ∧ AllHarmless (t.step a).1 acts

/-- The list of undefined names is as it should be: no name twice, and each with an entry that has no
value. -/
structure Tidy (t : TableObj ν) : Prop where
  nodup : t.undefs.Nodup
  undef : ∀ n ∈ t.undefs, ∃ r, dget t.symbols n = some r ∧ (t.entry r).isValid = false

theorem tidy_seen {t : TableObj ν} (h : Tidy t) :
    t.seen.pruneUndefines = (t.seen, .ok ()) ∧ ∀ m, (t.seen.resolve m).1 = t.seen ∧
      (t.seen.resolve m).2.1 = .ok () := by
  have hu : ∀ n ∈ t.seen.undefs, ∃ e, dget t.seen.symbols n = some e ∧ e.isValid = false := by
    intro n hn
    obtain ⟨r, h1, h2⟩ := h.undef n hn
    exact ⟨t.entry r, by rw [seen_get, h1]; rfl, h2⟩
  have hp : t.seen.pruneUndefines = (t.seen, .ok ()) := by
    unfold SymbolTable.pruneUndefines
    rw [pruneLoop_keep _ _ hu]
  refine ⟨hp, fun m => ?_⟩
  unfold SymbolTable.resolve
  cases m.toNat with
  | zero => exact ⟨rfl, rfl⟩
  | succ k =>
    rw [SymbolTable.resolveLoop]
    split
    · exact ⟨rfl, rfl⟩
    · rw [hp]
      dsimp only
      rw [if_pos rfl]
      exact ⟨rfl, rfl⟩

theorem tidy_step {t : TableObj ν} (ht : t.Sound) (h : Tidy t) (a : TableAct ν) (ha : Harmless t a) :
    Tidy (t.step a).1 := by
  have keep : ∀ n ∈ t.undefs, ¬ Replaces n a →
      ∃ r, dget (t.step a).1.symbols n = some r ∧ ((t.step a).1.entry r).isValid = false := by
    intro n hn hr
    obtain ⟨r, h1, h2⟩ := h.undef n hn
    refine ⟨r, place_step h1 a hr, ?_⟩
    obtain ⟨l, hl⟩ := entry_step (t := t) a (ht.places _ (dget_mem h1))
    rw [hl]
    exact h2
  have hrep : ∀ n ∈ t.undefs, ¬ Replaces n a := by
    intro n hn
    cases a with
    | put m r =>
      rintro rfl
      obtain ⟨k, h1, -⟩ := h.undef _ hn
      rw [show dget t.symbols m = none from ha] at h1
      cases h1
    | del m => exact absurd ha not_false
    | _ => exact not_false
  have same : (t.step a).1.undefs = t.undefs → Tidy (t.step a).1 := by
    intro e
    refine ⟨by rw [e]; exact h.nodup, fun n hn => ?_⟩
    rw [e] at hn
    exact keep n hn (hrep n hn)
  cases a with
  | call c =>
    cases c with
    | add c =>
      by_cases h1 : c.name = []
      · apply same; rw [TableObj.step, if_pos h1]
      · cases hg : dget t.symbols c.name with
        | some k => apply same; rw [TableObj.step, if_neg h1, hg]; rfl
        | none =>
          cases hv : c.value with
          | some v =>
            apply same
            rw [TableObj.step, if_neg h1, hg]
            simp [hv]
          | none =>
            have he : (t.step (.call (.add c))).1.undefs = t.undefs ++ [c.name] := by
              rw [TableObj.step, if_neg h1, hg]
              simp [hv]
            refine ⟨?_, ?_⟩
            · rw [he, List.nodup_append]
              refine ⟨h.nodup, by simp, ?_⟩
              intro x hx y hy
              simp only [List.mem_singleton] at hy
              subst hy
              rintro rfl
              obtain ⟨r, e, -⟩ := h.undef _ hx
              rw [hg] at e
              cases e
            · intro n hn
              rw [he] at hn
              rcases List.mem_append.1 hn with hn | hn
              · exact keep n hn (hrep n hn)
              · simp only [List.mem_singleton] at hn
                subst hn
                refine ⟨t.heap.length, ?_, ?_⟩
                · rw [TableObj.step, if_neg h1, hg, if_neg (by simp)]
                  show dget (dset t.symbols c.name _) c.name = _
                  rw [dget_dset, if_pos rfl]
                · rw [TableObj.step, if_neg h1, hg, if_neg (by simp)]
                  have : (TableObj.mk (t.heap ++ [newEntry c]) (dset t.symbols c.name t.heap.length)
                      (if c.value.isNone then t.undefs ++ [c.name] else t.undefs)).entry
                        t.heap.length = newEntry c := by
                    unfold TableObj.entry; simp
                  rw [this, newEntry, init_valid, hv]
                  rfl
    | ref m k =>
      apply same
      rw [TableObj.step]
      split <;> rfl
    | update m v s => exact same rfl
    | prune =>
      apply same
      show t.seen.pruneUndefines.1.undefs = t.undefs
      rw [(tidy_seen h).1]; rfl
    | resolve m =>
      apply same
      show (t.seen.resolve m).1.undefs = t.undefs
      rw [((tidy_seen h).2 m).1]; rfl
  | make c => exact same rfl
  | put m r =>
    apply same
    rw [TableObj.step]
    split <;> rfl
  | del m => exact absurd ha not_false
  | names f => exact absurd ha not_false
  | refs r f => exact same rfl

/-- C236, what holds: if a caller does no more than change references and put entries under new names,
then no name is twice among the undefined ones, each of them has an entry without a value, and the
methods work: `pruneUndefines` and `resolve` raise nothing and change nothing, and the table is
printed. -/
theorem C236_kept_partial (acts : List (TableAct ν)) (ha : AllHarmless TableObj.init acts) :
    let t := (TableObj.init.run acts).seen
    t.undefs.Nodup ∧ (∀ n ∈ t.undefs, ∃ e, t.lookup n = some e ∧ e.isValid = false) ∧
    t.pruneUndefines = (t, .ok ()) ∧ (∀ m, (t.resolve m).1 = t ∧ (t.resolve m).2.1 = .ok ()) ∧
    (∃ x, t.printTable = .ok x) ∧ ∃ x, t.printUndefs = .ok x := by
  have key : ∀ (acts : List (TableAct ν)) (t : TableObj ν), t.Sound → Tidy t → AllHarmless t acts →
      (t.run acts).Sound ∧ Tidy (t.run acts) := by
    intro acts
    induction acts with
    | nil => intro t h1 h2 _; exact ⟨h1, h2⟩
    | cons a acts ih =>
      intro t h1 h2 h3
      exact ih _ (sound_step h1 a).1 (tidy_step h1 h2 a h3.1) h3.2
  obtain ⟨-, h⟩ := key acts TableObj.init sound_init ⟨by simp [TableObj.init], by simp [TableObj.init]⟩ ha
  generalize TableObj.init.run acts = t at h
  have hu : ∀ n ∈ t.seen.undefs, ∃ e, t.seen.lookup n = some e ∧ e.isValid = false := by
    intro n hn
    obtain ⟨r, h1, h2⟩ := h.undef n hn
    exact ⟨t.entry r, by rw [SymbolTable.lookup, seen_get, h1]; rfl, h2⟩
  obtain ⟨es, he, -⟩ := printed_ok t.seen t.seen.undefs fun n hn => by
    obtain ⟨e, h1, -⟩ := hu n hn
    exact ⟨e, h1⟩
  obtain ⟨ds, hd, -⟩ := printed_ok t.seen (pySortedStr (t.seen.symbols.map (·.1))) fun n hn => by
    have : n ∈ t.seen.symbols.map (·.1) := (pySortedStr_perm _).mem_iff.1 hn
    exact Option.isSome_iff_exists.1 (dget_isSome.2 this)
  refine ⟨h.nodup, hu, (tidy_seen h).1, (tidy_seen h).2, ?_, ?_⟩
  · unfold SymbolTable.printTable
    rw [hd]
    simp only [py_bind_ok]
    split
    · rw [he]; exact ⟨_, rfl⟩
    · exact ⟨_, rfl⟩
  · unfold SymbolTable.printUndefs
    rw [he]; exact ⟨_, rfl⟩

/-- C236: a table with an undefined name that has no entry is not printed: KeyError; nor is it pruned if no
undefined name has a value. -/
theorem C236_missing (t : SymbolTable ν) {n : Str} (hn : n ∈ t.undefs) (hl : t.lookup n = none) :
    t.printUndefs = .error .keyError ∧ (∀ x, t.printTable ≠ .ok x) ∧
    ((∀ m ∈ t.undefs, t.hasValue m = false) → t.pruneUndefines = (t, .error .keyError)) := by
  have hp : ∀ l : List Str, n ∈ l → t.printed l = .error .keyError := by
    intro l hl'
    unfold SymbolTable.printed
    induction l with
    | nil => cases hl'
    | cons m l ih =>
      rw [List.mapM_cons]
      cases hm : dget t.symbols m with
      | none =>
        have : dgetE t.symbols m = .error .keyError := by unfold dgetE; rw [hm]
        rw [this]; rfl
      | some e =>
        have : dgetE t.symbols m = .ok e := by unfold dgetE; rw [hm]
        rw [this]
        rcases List.mem_cons.1 hl' with rfl | h
        · rw [SymbolTable.lookup, hm] at hl; cases hl
        · rw [ih h]; rfl
  refine ⟨?_, ?_, ?_⟩
  · unfold SymbolTable.printUndefs
    rw [hp _ hn]; rfl
  · intro x hx
    unfold SymbolTable.printTable at hx
    cases hd : t.printed (pySortedStr (t.symbols.map (·.1))) with
    | error e => rw [hd] at hx; cases hx
    | ok ds =>
      rw [hd, py_bind_ok, if_pos (List.length_pos_of_mem hn), hp _ hn] at hx
      cases hx
  · intro hv
    unfold SymbolTable.pruneUndefines
    have loop : ∀ (k i : Nat), t.undefs.length - i = k → n ∈ t.undefs.drop i →
        SymbolTable.pruneLoop t.symbols i t.undefs = (t.undefs, .error .keyError) := by
      intro k
      induction k with
      | zero =>
        intro i hi hm
        rw [List.drop_eq_nil_of_le (by omega)] at hm
        cases hm
      | succ k ih =>
        intro i hi hm
        have hlt : i < t.undefs.length := by omega
        rw [SymbolTable.pruneLoop, dif_pos hlt]
        cases hg : dget t.symbols t.undefs[i] with
        | none => rfl
        | some e =>
          have hval := hv _ (List.getElem_mem hlt)
          unfold SymbolTable.hasValue SymbolTable.lookup at hval
          rw [hg] at hval
          have hval' : e.isValid = false := hval
          dsimp only
          rw [if_neg (by rw [hval']; simp)]
          apply ih (i + 1) (by omega)
          rw [List.drop_eq_getElem_cons hlt] at hm
          rcases List.mem_cons.1 hm with h | h
          · rw [← h, show dget t.symbols n = none from hl] at hg
            cases hg
          · exact h
    rw [loop _ 0 rfl (by simpa using hn)]

/-- C236 as one would state it: whatever a caller does with what a table hands out, the undefined names
are the names without a value, each once, and no method of the table raises KeyError. -/
def C236_statement : Prop := ∀ (ν : Type) (acts : List (TableAct ν)),
  let t := (TableObj.init.run acts).seen
  t.undefs.Nodup ∧ (∀ n, n ∈ t.undefs ↔ ∃ e, t.lookup n = some e ∧ e.isValid = false) ∧
  t.pruneUndefines.2 ≠ .error .keyError ∧ t.printUndefs ≠ .error .keyError

/-- The arguments of an `add` without a value. -/
def bareAdd (n : Str) : AddCall Int := ⟨n, py "f", 1, none, none, none, none⟩

/-- C236 is false: a name can be taken out of the dict. -/
theorem C236_refuted : ¬ C236_statement := by
  intro h
  exact (h Int [.call (.add (bareAdd (py "A"))), .del (py "A")]).2.2.1 (by decide +kernel)

/-- C236 is false in another way: a name taken out and added again is twice among the undefined ones. -/
theorem C236_refuted_twice : ∃ acts : List (TableAct Int),
    (TableObj.init.run acts).seen.undefs = [py "A", py "A"] ∧
    (∀ a ∈ acts, a = .call (.add (bareAdd (py "A"))) ∨ a = .del (py "A")) :=
  ⟨[.call (.add (bareAdd (py "A"))), .del (py "A"), .call (.add (bareAdd (py "A")))], by decide,
    by simp⟩

/-- A concrete case of C236: an entry under a second name; a reference added under the one is seen under
the other; an entry made by the caller and put under a third name. -/
example : let acts : List (TableAct Int) := [.call (.add (bareAdd (py "A"))), .put (py "B") 0,
      .call (.ref (py "A") (py "x")), .make ⟨py "C", py "g", 2, some 5, none, none, none⟩,
      .put (py "C") 1, .refs 1 (fun _ => [py "y"])]
    let t := TableObj.init.run acts
    AllHarmless TableObj.init acts ∧ t.seen.undefs = [py "A"] ∧
    t.seen.lookup (py "A") = t.seen.lookup (py "B") ∧
    (t.seen.lookup (py "B")).map (fun e => (e.name, e.references)) = some (py "A", [py "x"]) ∧
    (t.seen.lookup (py "C")).map (fun e => (e.complexValue, e.references)) =
      some (some 5, [py "y"]) := by
  refine ⟨⟨trivial, rfl, trivial, trivial, rfl, trivial, trivial⟩, by decide, by decide, by decide, by decide⟩

end H800
