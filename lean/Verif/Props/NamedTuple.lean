import Verif.Model.NamedTuple
import Verif.Lemmas.Dict
import Verif.Lemmas.Decks

/-!
Property C118: named tuples with defaults.
-/

namespace H800

variable {α : Type}

/-- Binding succeeds exactly if there are not too many positional arguments and none of them is also
given by keyword. -/
theorem bindArgs_ok (fs : List Str) (ds args : List (Option α)) (kw : Dict Str (Option α))
    (hd : ds.length = fs.length) :
    (∃ t, bindArgs fs ds args kw = .ok t) ↔
      args.length ≤ fs.length ∧ ∀ f ∈ fs.take args.length, dget kw f = none := by
  induction fs generalizing ds args with
  | nil => cases args <;> simp [bindArgs]
  | cons f fs ih =>
    obtain ⟨d, ds, rfl⟩ := List.exists_cons_of_length_eq_add_one (hd.trans List.length_cons)
    have hd' : ds.length = fs.length := by simpa using hd
    cases args with
    | nil =>
      obtain ⟨t, ht⟩ := (ih ds [] hd').2 (by simp)
      simp only [bindArgs, List.tail_cons, List.head?_cons, ht]
      constructor
      · simp
      · intro _
        cases dget kw f <;> exact ⟨_, rfl⟩
    | cons a as =>
      simp only [bindArgs, List.tail_cons, List.length_cons, List.take_succ_cons, List.mem_cons,
        forall_eq_or_imp]
      cases hk : dget kw f with
      | some v => simp
      | none =>
        simp only [Nat.add_le_add_iff_right, true_and]
        rw [← ih ds as hd']
        cases bindArgs fs ds as kw with
        | ok t => exact ⟨fun _ => ⟨_, rfl⟩, fun _ => ⟨_, rfl⟩⟩
        | error e =>
          constructor
          · rintro ⟨t, ht⟩; cases ht
          · rintro ⟨t, ht⟩; cases ht

theorem bindArgs_get {fs : List Str} {ds args : List (Option α)} {kw : Dict Str (Option α)}
    {t : List (Option α)} (h : bindArgs fs ds args kw = .ok t) (hd : ds.length = fs.length) :
    t.length = fs.length ∧ ∀ i f, fs[i]? = some f → t[i]? =
      if i < args.length then args[i]? else
        match dget kw f with
        | some v => some v
        | none => ds[i]? := by
  induction fs generalizing ds args t with
  | nil =>
    cases args with
    | nil => simp only [bindArgs] at h; cases h; simp
    | cons a as => simp only [bindArgs] at h; cases h
  | cons f fs ih =>
    obtain ⟨d, ds, rfl⟩ := List.exists_cons_of_length_eq_add_one (hd.trans List.length_cons)
    have hd' : ds.length = fs.length := by simpa using hd
    cases args with
    | nil =>
      simp only [bindArgs, List.tail_cons, List.head?_cons] at h
      cases hr : bindArgs fs ds [] kw with
      | error e =>
        rw [hr] at h
        cases hk : dget kw f <;> rw [hk] at h <;> cases h
      | ok r =>
        rw [hr] at h
        obtain ⟨i1, i2⟩ := ih hr hd'
        cases hk : dget kw f with
        | some v =>
          rw [hk] at h; cases h
          refine ⟨by simp [i1], ?_⟩
          intro i g hi
          cases i with
          | zero =>
            simp only [List.getElem?_cons_zero, Option.some.injEq] at hi
            subst hi; simp [hk]
          | succ i => simpa using i2 i g (by simpa using hi)
        | none =>
          rw [hk] at h; cases h
          refine ⟨by simp [i1], ?_⟩
          intro i g hi
          cases i with
          | zero =>
            simp only [List.getElem?_cons_zero, Option.some.injEq] at hi
            subst hi; simp [hk]
          | succ i => simpa using i2 i g (by simpa using hi)
    | cons a as =>
      simp only [bindArgs, List.tail_cons] at h
      cases hk : dget kw f with
      | some v => rw [hk] at h; cases h
      | none =>
        rw [hk] at h
        cases hr : bindArgs fs ds as kw with
        | error e => rw [hr] at h; cases h
        | ok r =>
          rw [hr] at h; cases h
          obtain ⟨i1, i2⟩ := ih hr hd'
          refine ⟨by simp [i1], ?_⟩
          intro i g hi
          cases i with
          | zero => simp
          | succ i => simpa using i2 i g (by simpa using hi)

theorem bindArgs_error {fs : List Str} {ds args : List (Option α)} {kw : Dict Str (Option α)}
    {e : PyErr} (h : bindArgs fs ds args kw = .error e) : e = .typeError := by
  induction fs generalizing ds args e with
  | nil =>
    cases args with
    | nil => simp only [bindArgs] at h; cases h
    | cons a as => simp only [bindArgs] at h; cases h; rfl
  | cons f fs ih =>
    cases args with
    | nil =>
      simp only [bindArgs] at h
      cases hr : bindArgs fs ds.tail [] kw with
      | error e' =>
        rw [hr] at h
        have := ih hr
        subst this
        cases hk : dget kw f <;> cases hh : ds.head? <;> rw [hk] at h <;> (try rw [hh] at h) <;>
          cases h <;> rfl
      | ok r =>
        rw [hr] at h
        cases hk : dget kw f <;> cases hh : ds.head? <;> rw [hk] at h <;> (try rw [hh] at h) <;>
          cases h; rfl
    | cons a as =>
      simp only [bindArgs] at h
      cases hk : dget kw f with
      | some v => rw [hk] at h; cases h; rfl
      | none =>
        rw [hk] at h
        cases hr : bindArgs fs ds.tail as kw with
        | error e' => rw [hr] at h; have := ih hr; subst this; cases h; rfl
        | ok r => rw [hr] at h; cases h

/-- The value a field gets in `T(*args, **kw)`: the positional argument, else the keyword argument,
else the default given to `namedtuple_defaults`, else None. -/
def fieldValue (values args : List (Option α)) (kw : List (Str × Option α)) (i : Nat) (f : Str) :
    Option α :=
  match args[i]? with
  | some v => v
  | none =>
    match kw.find? (fun p => p.1 = f) with
    | some p => p.2
    | none =>
      match values[i]? with
      | some v => v
      | none => none

/-- C118: `namedtuple_defaults(name, names, values)` makes a type for different names and at most as
many values, and raises an exception otherwise. Its constructor accepts exactly at most `len(names)`
positional arguments and keywords for later fields; every field then has its positional argument, its
keyword argument, its default or None, in this order of preference. -/
theorem C118_defaults (names : List Str) (values : List (Option α)) :
    (¬ names.Nodup → namedtupleDefaults names values = .error .valueError) ∧
    (names.Nodup → names.length < values.length →
      namedtupleDefaults names values = .error .typeError) ∧
    (names.Nodup → values.length ≤ names.length → ∃ T, namedtupleDefaults names values = .ok T ∧
      ∀ (args : List (Option α)) (kw : List (Str × Option α)),
        ((∃ t, T.call args kw = .ok t) ↔ args.length ≤ names.length ∧
          ∀ p ∈ kw, ∃ i, args.length ≤ i ∧ names[i]? = some p.1) ∧
        (∀ e, T.call args kw = .error e → e = .typeError) ∧
        ∀ t, T.call args kw = .ok t → t.length = names.length ∧
          ∀ i f, names[i]? = some f → t[i]? = some (fieldValue values args kw i f)) := by
  have dfind : ∀ (kw : List (Str × Option α)) (f : Str),
      dget kw f = (kw.find? (fun p => p.1 = f)).map (·.2) := by
    intro kw f
    induction kw with
    | nil => rfl
    | cons p kw ih =>
      obtain ⟨a, b⟩ := p
      simp only [dget, List.find?_cons]
      by_cases h : a = f
      · simp [h]
      · simp [h, ih]
  have hproto := bindArgs_ok (α := α) names (List.replicate names.length none) values []
    List.length_replicate
  have hcall : NTType.call (⟨names, List.replicate names.length none⟩ : NTType α) values [] =
      bindArgs names (List.replicate names.length none) values [] := by
    unfold NTType.call
    rw [if_neg (by simp)]
  refine ⟨?_, ?_, ?_⟩
  · intro h
    unfold namedtupleDefaults
    rw [if_pos h]
  · intro h1 h2
    unfold namedtupleDefaults
    rw [if_neg (not_not.2 h1), hcall]
    cases hb : bindArgs names (List.replicate names.length none) values [] with
    | ok t => exact absurd (hproto.1 ⟨t, hb⟩).1 (by omega)
    | error e => rw [bindArgs_error hb]; rfl
  · intro h1 h2
    obtain ⟨t, ht⟩ := hproto.2 ⟨h2, fun _ _ => rfl⟩
    obtain ⟨l1, l2⟩ := bindArgs_get ht List.length_replicate
    refine ⟨⟨names, t⟩, ?_, ?_⟩
    · unfold namedtupleDefaults
      rw [if_neg (not_not.2 h1), hcall, ht]; rfl
    · intro args kw
      refine ⟨?_, ?_, ?_⟩
      · unfold NTType.call
        by_cases hk : ∃ p ∈ kw, p.1 ∉ names
        · rw [if_pos hk]
          obtain ⟨p, hp, hn⟩ := hk
          constructor
          · rintro ⟨_, h⟩; cases h
          · rintro ⟨_, h⟩
            obtain ⟨i, _, hi⟩ := h p hp
            exact absurd (List.mem_of_getElem? hi) hn
        · rw [if_neg hk, bindArgs_ok names t args kw l1]
          push Not at hk
          apply and_congr_right
          intro ha
          constructor
          · intro h p hp
            obtain ⟨i, hi⟩ := List.getElem?_of_mem (hk p hp)
            refine ⟨i, ?_, hi⟩
            by_contra hlt
            have hm : p.1 ∈ names.take args.length := by
              apply List.mem_of_getElem? (i := i)
              rw [List.getElem?_take, if_pos (by omega)]
              exact hi
            have := h p.1 hm
            rw [dfind] at this
            simp only [Option.map_eq_none_iff, List.find?_eq_none, decide_eq_true_eq] at this
            exact this p hp rfl
          · intro h f hf
            rw [dfind]
            simp only [Option.map_eq_none_iff, List.find?_eq_none, decide_eq_true_eq]
            rintro p hp rfl
            obtain ⟨i, hi1, hi2⟩ := h p hp
            obtain ⟨j, hj⟩ := List.getElem?_of_mem hf
            rw [List.getElem?_take] at hj
            split at hj
            · rename_i hlt
              obtain ⟨b1, e1⟩ := List.getElem?_eq_some_iff.1 hi2
              obtain ⟨b2, e2⟩ := List.getElem?_eq_some_iff.1 hj
              have := (h1.getElem_inj_iff).1 (e1.trans e2.symm)
              omega
            · cases hj
      · intro e he
        unfold NTType.call at he
        split at he
        · cases he; rfl
        · exact bindArgs_error he
      · intro r hr
        unfold NTType.call at hr
        split at hr
        · cases hr
        · obtain ⟨r1, r2⟩ := bindArgs_get hr l1
          refine ⟨r1, ?_⟩
          intro i f hi
          have hlt : i < names.length := (List.getElem?_eq_some_iff.1 hi).1
          rw [r2 i f hi, l2 i f hi]
          unfold fieldValue
          rw [dfind]
          by_cases ha : i < args.length
          · rw [if_pos ha, List.getElem?_eq_getElem ha]
          · have hnone : args[i]? = none := List.getElem?_eq_none (by omega)
            rw [if_neg ha, hnone]
            cases kw.find? (fun p => p.1 = f) with
            | some p => rfl
            | none =>
              simp only [Option.map_none]
              by_cases hv : i < values.length
              · rw [if_pos hv, List.getElem?_eq_getElem hv]
              · have hnv : values[i]? = none := List.getElem?_eq_none (by omega)
                rw [if_neg hv, hnv]
                simp [dget, hlt]

/-- C118 on the `Opcode` type (instructions.py 130-132): without a sixth argument the type is
"unmasked", without anything the mnemonic is None. -/
example : ∃ T, namedtupleDefaults [py "m", py "c", py "b23", py "b7", py "op", py "type"]
      [none, none, none, none, none, some (py "unmasked")] = .ok T ∧
    T.call [some (py "BA")] [(py "op", some (py "9"))] =
      .ok [some (py "BA"), none, none, none, some (py "9"), some (py "unmasked")] ∧
    T.call [some (py "BA")] [(py "m", none)] = .error .typeError := by
  refine ⟨_, rfl, ?_, ?_⟩ <;> decide

end H800
