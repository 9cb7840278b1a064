import Verif.Props.SymbolTable

/-!
Property C235: how many passes `resolve` needs.
-/

namespace H800

open Spec

variable {ν : Type}

/-- Whether a name has a value. -/
def SymbolTable.hasValue (t : SymbolTable ν) (n : Str) : Bool :=
  ((t.lookup n).map (·.isValid)).getD false

/-- Every name in `undefines` has an entry. -/
def SymbolTable.Whole (t : SymbolTable ν) : Prop := ∀ n ∈ t.undefs, ∃ e, t.lookup n = some e

theorem deleted_half {α : Type} (p : α → Bool) (l : List α) :
    2 * (deletedWhileIterating p l).countP p ≤ l.countP p := by
  induction l using deletedWhileIterating.induct p with
  | case1 => simp [deletedWhileIterating]
  | case2 x hx => simp [deletedWhileIterating, hx]
  | case3 x hx => simp [deletedWhileIterating, hx]
  | case4 x y l hx ih =>
    rw [deletedWhileIterating, if_pos hx, List.countP_cons, List.countP_cons, List.countP_cons,
      if_pos hx]
    split <;> omega
  | case5 x y l hx ih =>
    rw [deletedWhileIterating, if_neg hx, List.countP_cons_of_neg hx, List.countP_cons_of_neg hx]
    exact ih

theorem deleted_others {α : Type} (p : α → Bool) (l : List α) :
    (deletedWhileIterating p l).filter (fun x => !p x) = l.filter fun x => !p x := by
  induction l using deletedWhileIterating.induct p with
  | case1 => simp [deletedWhileIterating]
  | case2 x hx => simp [deletedWhileIterating, hx]
  | case3 x hx => simp [deletedWhileIterating, hx]
  | case4 x y l hx ih =>
    rw [deletedWhileIterating, if_pos hx, List.filter_cons, List.filter_cons, List.filter_cons, ih]
    simp [hx]
  | case5 x y l hx ih =>
    rw [deletedWhileIterating, if_neg hx, List.filter_cons, ih, List.filter_cons (x := x)]

theorem deleted_none {α : Type} (p : α → Bool) (l : List α) :
    (deletedWhileIterating p l).length = l.length ↔ l.countP p = 0 := by
  have hle : ∀ l : List α, (deletedWhileIterating p l).length ≤ l.length := by
    intro l
    induction l using deletedWhileIterating.induct p with
    | case1 => simp [deletedWhileIterating]
    | case2 x hx => simp [deletedWhileIterating, hx]
    | case3 x hx => simp [deletedWhileIterating, hx]
    | case4 x y l hx ih =>
      rw [deletedWhileIterating, if_pos hx]
      simp only [List.length_cons]; omega
    | case5 x y l hx ih =>
      rw [deletedWhileIterating, if_neg hx]
      simp only [List.length_cons] at ih ⊢; omega
  induction l using deletedWhileIterating.induct p with
  | case1 => simp [deletedWhileIterating]
  | case2 x hx => simp [deletedWhileIterating, hx]
  | case3 x hx => simp [deletedWhileIterating, hx]
  | case4 x y l hx ih =>
    rw [deletedWhileIterating, if_pos hx, List.countP_cons, if_pos hx]
    have := hle l
    simp only [List.length_cons]
    omega
  | case5 x y l hx ih =>
    rw [deletedWhileIterating, if_neg hx, List.countP_cons_of_neg hx]
    refine Iff.trans ?_ ih
    rw [List.length_cons, List.length_cons (a := x)]
    omega

theorem deleted_all {α : Type} (p : α → Bool) (l : List α) (h : ∀ x ∈ l, p x = true) :
    (deletedWhileIterating p l).length = l.length / 2 := by
  induction l using deletedWhileIterating.induct p with
  | case1 => simp [deletedWhileIterating]
  | case2 x hx => simp [deletedWhileIterating, hx]
  | case3 x hx => exact absurd (h x (by simp)) hx
  | case4 x y l hx ih =>
    rw [deletedWhileIterating, if_pos hx, List.length_cons, ih (fun z hz => h z (by simp [hz]))]
    simp only [List.length_cons]; omega
  | case5 x y l hx ih => exact absurd (h x (by simp)) hx

/-- One pass over a table all of whose undefined names have entries. -/
theorem prune_whole {t : SymbolTable ν} (ht : t.Whole) :
    t.pruneUndefines = ({ t with undefs := deletedWhileIterating t.hasValue t.undefs }, .ok ()) := by
  obtain ⟨h1, h2, h3, -⟩ := C64_prune_partial t ht
  refine Prod.ext ?_ h1
  calc t.pruneUndefines.1 = ⟨t.pruneUndefines.1.symbols, t.pruneUndefines.1.undefs⟩ := rfl
    _ = _ := by rw [h2, h3]; rfl

theorem whole_deleted {t : SymbolTable ν} (ht : t.Whole) :
    ({ t with undefs := deletedWhileIterating t.hasValue t.undefs } : SymbolTable ν).Whole := by
  intro n hn
  exact ht n ((deleted_sublist _ _).subset hn)

/-- C235: each pass takes out at least half of the names that have a value, and no other. -/
theorem C235_half (t : SymbolTable ν) (ht : t.Whole) :
    2 * t.pruneUndefines.1.undefs.countP t.hasValue ≤ t.undefs.countP t.hasValue ∧
    t.pruneUndefines.1.undefs.filter (fun n => !t.hasValue n) =
      t.undefs.filter fun n => !t.hasValue n := by
  rw [prune_whole ht]
  exact ⟨deleted_half _ _, deleted_others _ _⟩

theorem filter_unresolved {t : SymbolTable ν} (h : t.undefs.countP t.hasValue = 0) :
    t.undefs.filter (fun n => !t.hasValue n) = t.undefs := by
  rw [List.filter_eq_self]
  intro n hn
  rw [List.countP_eq_zero] at h
  simpa using h n hn

theorem resolve_passes (k : Nat) : ∀ (i : Nat) (t : SymbolTable ν), t.Whole →
    t.undefs.countP t.hasValue < 2 ^ k →
    (t.resolveLoop k i t.undefs.length t.undefs.length).1 =
      { t with undefs := t.undefs.filter fun n => !t.hasValue n } := by
  induction k with
  | zero =>
    intro i t _ hlt
    rw [SymbolTable.resolveLoop, filter_unresolved (by simpa using hlt)]
  | succ k ih =>
    intro i t ht hlt
    rw [SymbolTable.resolveLoop]
    by_cases hn : t.undefs.length = 0
    · rw [if_pos hn]
      have : t.undefs = [] := List.length_eq_zero_iff.1 hn
      rw [filter_unresolved (by rw [this]; rfl)]
    · rw [if_neg hn, prune_whole ht]
      simp only
      split
      · rename_i he
        rw [deleted_none] at he
        rw [filter_unresolved he]
        have : deletedWhileIterating t.hasValue t.undefs = t.undefs :=
          (deleted_sublist _ _).eq_of_length ((deleted_none t.hasValue t.undefs).2 he)
        simp only [this]
      · have hh := deleted_half t.hasValue t.undefs
        have := ih (i + 1) _ (whole_deleted ht) (by
          show (deletedWhileIterating t.hasValue t.undefs).countP t.hasValue < 2 ^ k
          rw [pow_succ] at hlt
          omega)
        refine this.trans ?_
        rw [← deleted_others t.hasValue t.undefs]
        rfl

/-- C235, what holds: `resolve` of `k` passes takes out all names that have a value, and no other, if
there are less than `2 ^ k` of them: less than 1024 without an argument. -/
theorem C235_resolve_partial (t : SymbolTable ν) (ht : t.Whole) (k : Nat)
    (h : t.undefs.countP t.hasValue < 2 ^ k) :
    (t.resolve k).1 = { t with undefs := t.undefs.filter fun n => !t.hasValue n } :=
  resolve_passes k 0 t ht h

theorem resolve_all (k : Nat) : ∀ (i : Nat) (t : SymbolTable ν), t.Whole →
    (∀ n ∈ t.undefs, t.hasValue n = true) →
    (t.resolveLoop k i t.undefs.length t.undefs.length).1.undefs.length = t.undefs.length / 2 ^ k := by
  induction k with
  | zero => intro i t _ _; simp [SymbolTable.resolveLoop]
  | succ k ih =>
    intro i t ht ha
    rw [SymbolTable.resolveLoop]
    by_cases hn : t.undefs.length = 0
    · rw [if_pos hn]; simp [hn]
    · rw [if_neg hn, prune_whole ht]
      have hd := deleted_all t.hasValue t.undefs ha
      simp only
      rw [if_neg (by rw [hd]; omega)]
      have := ih (i + 1) _ (whole_deleted ht) (fun n hn => ha n ((deleted_sublist _ _).subset hn))
      refine this.trans ?_
      show (deletedWhileIterating t.hasValue t.undefs).length / 2 ^ k = _
      rw [hd, Nat.div_div_eq_div_mul, pow_succ, Nat.mul_comm]

/-- C235: this is the exact number if all names have a value: `k` passes leave one of every `2 ^ k` names. -/
theorem C235_exact (t : SymbolTable ν) (ht : t.Whole) (k : Nat)
    (h : ∀ n ∈ t.undefs, t.hasValue n = true) :
    (t.resolve k).1.undefs.length = t.undefs.length / 2 ^ k :=
  resolve_all k 0 t ht h

/-- C235: what `resolve` reports. "All symbols resolved" is said only if no name is left, and lack of
progress only with the number of names left, of which there are some and none has a value; one of
the two is said if less than `2 ^ (k - 1)` names have a value. -/
theorem C235_report (t : SymbolTable ν) (ht : t.Whole) (k : Nat) :
    (ResolveMsg.allResolved ∈ (t.resolve k).2.2 → (t.resolve k).1.undefs = []) ∧
    (∀ m, ResolveMsg.noProgress m ∈ (t.resolve k).2.2 → m = (t.resolve k).1.undefs.length ∧
      m ≠ 0 ∧ ∀ n ∈ (t.resolve k).1.undefs, t.hasValue n = false) ∧
    (1 ≤ k → t.undefs.countP t.hasValue < 2 ^ (k - 1) →
      ResolveMsg.allResolved ∈ (t.resolve k).2.2 ∨ ∃ m, ResolveMsg.noProgress m ∈ (t.resolve k).2.2) := by
  have key : ∀ (k i : Nat) (t : SymbolTable ν), t.Whole →
      let r := t.resolveLoop k i t.undefs.length t.undefs.length
      (ResolveMsg.allResolved ∈ r.2.2 → r.1.undefs = []) ∧
      (∀ m, ResolveMsg.noProgress m ∈ r.2.2 → m = r.1.undefs.length ∧ m ≠ 0 ∧
        ∀ n ∈ r.1.undefs, t.hasValue n = false) ∧
      (1 ≤ k → t.undefs.countP t.hasValue < 2 ^ (k - 1) →
        ResolveMsg.allResolved ∈ r.2.2 ∨ ∃ m, ResolveMsg.noProgress m ∈ r.2.2) := by
    intro k
    induction k with
    | zero => intro i t _; simp [SymbolTable.resolveLoop]
    | succ k ih =>
      intro i t ht
      dsimp only
      rw [SymbolTable.resolveLoop]
      by_cases hn : t.undefs.length = 0
      · rw [if_pos hn]
        simp [List.length_eq_zero_iff.1 hn]
      · rw [if_neg hn, prune_whole ht]
        simp only
        split
        · rename_i he
          have h0 := he
          rw [deleted_none, List.countP_eq_zero] at h0
          refine ⟨by simp, ?_, fun _ _ => Or.inr ⟨_, List.mem_cons_of_mem _ List.mem_cons_self⟩⟩
          intro m hm
          simp only [List.mem_cons, reduceCtorEq, ResolveMsg.noProgress.injEq, List.not_mem_nil,
            or_false, false_or] at hm
          subst hm
          refine ⟨rfl, by rw [he]; exact hn, fun n hn' => ?_⟩
          simpa using h0 n ((deleted_sublist _ _).subset hn')
        · rename_i he
          obtain ⟨g1, g2, g3⟩ := ih (i + 1) _ (whole_deleted ht)
          refine ⟨fun hm => g1 (by simpa using hm), fun m hm => g2 m (by simpa using hm), ?_⟩
          intro _ hlt
          have hh := deleted_half t.hasValue t.undefs
          have hpos : 0 < t.undefs.countP t.hasValue := by
            rcases Nat.eq_zero_or_pos (t.undefs.countP t.hasValue) with e | e
            · exact absurd ((deleted_none _ _).2 e) he
            · exact e
          rw [Nat.add_sub_cancel] at hlt
          obtain ⟨k', rfl⟩ : ∃ k', k = k' + 1 := by
            cases k with
            | zero => simp only [pow_zero] at hlt; omega
            | succ k' => exact ⟨k', rfl⟩
          rcases g3 (by omega) (by
            show (deletedWhileIterating t.hasValue t.undefs).countP t.hasValue < 2 ^ (k' + 1 - 1)
            rw [pow_succ] at hlt
            rw [Nat.add_sub_cancel]
            omega) with h | ⟨m, h⟩
          · exact Or.inl (List.mem_cons_of_mem _ h)
          · exact Or.inr ⟨m, List.mem_cons_of_mem _ h⟩
  exact key k 0 t ht

/-- C235: in a table that is not whole the passes end with a KeyError at the latest when a name without an
entry is come to. Whatever the table, only names with values are taken out, so that a name without an
entry stays and the symbols are as they were; a KeyError says that there is such a name. -/
theorem C235_any (t : SymbolTable ν) (k : Nat) :
    (t.resolve k).1.symbols = t.symbols ∧ (t.resolve k).1.undefs.Sublist t.undefs ∧
    (t.resolve k).1.undefs.filter (fun n => !t.hasValue n) = t.undefs.filter (fun n => !t.hasValue n) ∧
    ((t.resolve k).2.1 = .ok () ∨ (t.resolve k).2.1 = .error .keyError ∧
      ∃ n ∈ (t.resolve k).1.undefs, t.lookup n = none) := by
  have loop : ∀ (m : Nat) (d : Dict Str (SymbolTableEntry ν)) (i : Nat) (l : List Str),
      l.length - i = m →
      (SymbolTable.pruneLoop d i l).1.Sublist l ∧
      (SymbolTable.pruneLoop d i l).1.filter
        (fun n => !((dget d n).map (·.isValid)).getD false) =
        l.filter (fun n => !((dget d n).map (·.isValid)).getD false) ∧
      ((SymbolTable.pruneLoop d i l).2 = .ok () ∨
        (SymbolTable.pruneLoop d i l).2 = .error .keyError ∧
          ∃ n ∈ (SymbolTable.pruneLoop d i l).1, dget d n = none) := by
    intro m
    induction m using Nat.strong_induction_on with
    | _ m ih =>
      intro d i l hm
      rw [SymbolTable.pruneLoop]
      by_cases hi : i < l.length
      · rw [dif_pos hi]
        cases hg : dget d l[i] with
        | none => exact ⟨.refl _, rfl, Or.inr ⟨rfl, l[i], List.getElem_mem hi, hg⟩⟩
        | some e =>
          simp only
          by_cases hv : e.isValid = true
          · rw [if_pos hv]
            have hlen : (l.eraseIdx i).length = l.length - 1 := by
              rw [List.length_eraseIdx, if_pos hi]
            obtain ⟨h1, h2, h3⟩ := ih ((l.eraseIdx i).length - (i + 1)) (by omega) d (i + 1) _ rfl
            refine ⟨h1.trans (List.eraseIdx_sublist _ _), h2.trans ?_, h3⟩
            have e1 : l = l.take i ++ l[i] :: l.drop (i + 1) := by simp
            rw [List.eraseIdx_eq_take_drop_succ]
            conv_rhs => rw [e1]
            rw [List.filter_append, List.filter_append, List.filter_cons_of_neg]
            simp [hg, hv]
          · rw [if_neg hv]
            exact ih (l.length - (i + 1)) (by omega) d (i + 1) l rfl
      · rw [dif_neg hi]
        exact ⟨.refl _, rfl, Or.inl rfl⟩
  have key : ∀ (k i p n : Nat) (t : SymbolTable ν),
      let r := t.resolveLoop k i p n
      r.1.symbols = t.symbols ∧ r.1.undefs.Sublist t.undefs ∧
      r.1.undefs.filter (fun n => !t.hasValue n) = t.undefs.filter (fun n => !t.hasValue n) ∧
      (r.2.1 = .ok () ∨ r.2.1 = .error .keyError ∧ ∃ n ∈ r.1.undefs, t.lookup n = none) := by
    intro k
    induction k with
    | zero => intro i p n t; exact ⟨rfl, .refl _, rfl, Or.inl rfl⟩
    | succ k ih =>
      intro i p n t
      dsimp only
      rw [SymbolTable.resolveLoop]
      by_cases hn : n = 0
      · rw [if_pos hn]; exact ⟨rfl, .refl _, rfl, Or.inl rfl⟩
      · rw [if_neg hn]
        obtain ⟨h1, h2, h3⟩ := loop _ t.symbols 0 t.undefs rfl
        unfold SymbolTable.pruneUndefines
        dsimp only
        generalize hr : SymbolTable.pruneLoop t.symbols 0 t.undefs = r at h1 h2 h3
        obtain ⟨l, o⟩ := r
        rcases h3 with rfl | ⟨rfl, h3⟩
        · dsimp only
          split
          · exact ⟨rfl, h1, h2, Or.inl rfl⟩
          · obtain ⟨g1, g2, g3, g4⟩ := ih (i + 1) l.length l.length { t with undefs := l }
            exact ⟨g1, g2.trans h1, g3.trans h2, g4⟩
        · exact ⟨rfl, h1, h2, Or.inr ⟨rfl, h3⟩⟩
  exact key k 0 _ _ t

/-- C235 as the method would have it: after `resolve()` no name left in `undefines` has a value. -/
def C235_statement : Prop := ∀ (ν : Type) (t : SymbolTable ν), t.Whole → t.undefs.Nodup →
  ∀ n ∈ (t.resolve 10).1.undefs, t.hasValue n = false

/-- A table of `n` symbols with values, all of them in `undefines`. -/
def manySymbols (n : Nat) : SymbolTable Int :=
  let names := (List.range n).map fun i => List.replicate i 'A'
  ⟨names.map fun m => (m, SymbolTableEntry.init m (some 0) none [] 0 none none), names⟩

theorem many_lookup (names : List Str) (n : Str) (h : n ∈ names) :
    dget (names.map fun m => (m, SymbolTableEntry.init (ν := Int) m (some 0) none [] 0 none none)) n =
      some (SymbolTableEntry.init n (some 0) none [] 0 none none) := by
  induction names with
  | nil => cases h
  | cons m names ih =>
    rw [List.map_cons, dget]
    by_cases e : m = n
    · rw [if_pos e, e]
    · rw [if_neg e]
      rcases List.mem_cons.1 h with h | h
      · exact absurd h.symm e
      · exact ih h

theorem many_facts (k : Nat) : (manySymbols k).Whole ∧ (manySymbols k).undefs.Nodup ∧
    (manySymbols k).undefs.length = k ∧
    ∀ n ∈ (manySymbols k).undefs, (manySymbols k).hasValue n = true := by
  refine ⟨fun n hn => ⟨_, many_lookup _ n hn⟩, ?_, ?_, ?_⟩
  · refine List.Nodup.map ?_ List.nodup_range
    intro a b e
    simpa using congrArg List.length e
  · show ((List.range k).map _).length = k
    rw [List.length_map, List.length_range]
  · intro n hn
    unfold SymbolTable.hasValue SymbolTable.lookup
    rw [show dget (manySymbols k).symbols n = _ from many_lookup _ n hn]
    rfl

/-- C235: the bound of C235_resolve_partial is the best for every number of passes: there is a table
with `2 ^ k` names that have values of which one is left after `k` passes. -/
theorem C235_sharp (k : Nat) : ∃ t : SymbolTable Int, t.Whole ∧ t.undefs.Nodup ∧
    t.undefs.countP t.hasValue = 2 ^ k ∧
    ∃ n, (t.resolve k).1.undefs = [n] ∧ t.hasValue n = true := by
  obtain ⟨hw, hnd, hlen, hv⟩ := many_facts (2 ^ k)
  refine ⟨manySymbols (2 ^ k), hw, hnd, (List.countP_eq_length.2 hv).trans hlen, ?_⟩
  have he := C235_exact _ hw k hv
  rw [hlen, Nat.div_self (Nat.two_pow_pos k)] at he
  obtain ⟨n, hn⟩ := List.length_eq_one_iff.1 he
  exact ⟨n, hn, hv n ((C235_any _ k).2.1.subset (by rw [hn]; exact List.mem_singleton.2 rfl))⟩

/-- C235 is false: of 1024 names with values one can be left. -/
theorem C235_refuted : ¬ C235_statement := by
  intro h
  obtain ⟨t, hw, hnd, -, n, hn, hv⟩ := C235_sharp 10
  have h1 := h Int t hw hnd n (by
    show n ∈ (t.resolve ((10 : Nat) : Int)).1.undefs
    rw [hn]; exact List.mem_singleton.2 rfl)
  rw [hv] at h1
  cases h1

/-- A concrete case of C235: three names with values next to each other, and one without. -/
example : let t : SymbolTable Int := { manySymbols 3 with
      symbols := (py "B", SymbolTableEntry.init (py "B") none none [] 0 none none) ::
        (manySymbols 3).symbols
      undefs := (manySymbols 3).undefs ++ [py "B"] }
    t.undefs.countP t.hasValue = 3 ∧ (t.resolve 1).1.undefs = [py "A", py "B"] ∧
    (t.resolve 2).1.undefs = [py "B"] ∧
    (t.resolve 3).2.2 = [.pass 0 4, .pass 1 2, .pass 2 1, .noProgress 1] := by
  decide +kernel

/-- A name without an entry: the pass stops there, after having taken out the one before. -/
example : let t : SymbolTable Int := { manySymbols 2 with undefs := [py "A", py "B", py "C"] }
    (t.resolve 10).2.1 = .error .keyError ∧ (t.resolve 10).1.undefs = [py "B", py "C"] := by
  decide +kernel

end H800
