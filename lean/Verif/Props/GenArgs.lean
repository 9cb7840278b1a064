import Verif.Lemmas.IntText
import Verif.Props.Status
import Verif.Props.Gen

/-!
C168: genlines for every command line.
-/

namespace H800

open Spec

/-- C168: `int` takes the texts of whole numbers, and no others. -/
theorem C168_int (s : Str) :
    (∀ n, pyInt s = .ok n ↔ IntText s n) ∧
    ((∀ n, ¬ IntText s n) ↔ pyInt s = .error .valueError) := by
  refine ⟨fun n => pyInt_iff, pyInt_error, fun h n hn => ?_⟩
  rw [pyInt_iff.2 hn] at h
  cases h

/-- C168: a text is that of one number at most. -/
theorem C168_int_unique {s : Str} {n n' : Int} (h : IntText s n) (h' : IntText s n') : n = n' :=
  intText_unique h h'

theorem intText_length {s : Str} {n : Int} (h : IntText s n) : (pyStr n).length ≤ s.length := by
  obtain ⟨a, sign, t, b, v, -, -, rfl, hd, hs⟩ := h
  have hp : 1 ≤ t.length := by
    obtain ⟨c, u, rfl, -⟩ := digits_trimmed hd
    simp
  have hl := numeral_length hp (digits_lt hd)
  unfold pyStr
  simp only [List.length_append]
  rcases hs with ⟨-, rfl⟩ | ⟨rfl, rfl⟩
  · rw [if_neg (by omega), show ((v : Int)).natAbs = v by omega]
    omega
  · rw [show (-(v : Int)).natAbs = v by omega]
    split
    · simp only [List.length_cons, List.length_nil]; omega
    · omega

theorem zeroPad_length (w : Nat) (n : Int) : (zeroPad w n).length = max w (pyStr n).length := by
  unfold zeroPad pyStr padLeft
  split
  · simp only [List.length_cons, List.length_append, List.length_replicate]
    have : 1 ≤ (numeral 10 n.natAbs).length :=
      List.length_pos_iff.2 (numeral_decimal _).1
    omega
  · simp only [List.length_append, List.length_replicate]
    omega

theorem genLine_number (w : Nat) (sc ec n : Int) : NumberLine w sc ec n (genLine w sc ec n) := by
  refine ⟨_, ⟨zeroPad_signed w n, ?_, fun t ht hw => ?_⟩, rfl⟩
  · rw [zeroPad_length]; omega
  · rw [zeroPad_length]
    have := pyStr_length ht
    omega

theorem rangeStep_steps {start stop step : Int} (h : step ≠ 0) :
    ∃ nums, pyRangeStep start stop step = .ok nums ∧ Steps start stop step nums := by
  rcases lt_or_gt_of_ne h with h | h
  · obtain ⟨l, h1, h2, h3⟩ := rangeStep_neg (start := start) (stop := stop) h
    exact ⟨l, h1, fun h' => absurd h (by omega), fun _ => ⟨h2, h3⟩⟩
  · obtain ⟨l, h1, h2, h3⟩ := rangeStep_pos (start := start) (stop := stop) h
    exact ⟨l, h1, fun _ => ⟨h2, h3⟩, fun h' => absurd h (by omega)⟩

theorem intArg_iff {args : List Str} {i : Nat} {d v : Int} :
    intArg args i d = .ok v ↔ OptInt args i d v := by
  unfold intArg OptInt
  cases args[i]? with
  | none => simp [eq_comm]
  | some s => simp [pyInt_iff]

theorem intArg_cases (args : List Str) (i : Nat) (d : Int) :
    (∃ v, intArg args i d = .ok v) ∨ intArg args i d = .error .valueError := by
  unfold intArg
  cases args[i]? with
  | none => exact .inl ⟨_, rfl⟩
  | some s => exact pyInt_cases s

theorem genWidth_max {s : Str} {n : Int} (h : IntText s n) :
    genWidth (pyStr n).length s.length = max 4 s.length := by
  have := intText_length h
  unfold genWidth
  simp only
  split <;> split <;> omega

/-- C168: with fewer than two arguments, or if one of the first two has more than six characters,
genlines exits. Otherwise, if the arguments are whole numbers and the step is not 0, it prints a line
for every number reached from `start` in steps before `stop + step`; the numbers are filled up with
zeros to the length of the second argument, and at least to 4. In all other cases int or range raise an
error, and nothing is printed. -/
theorem C168_lines (args : List Str) :
    (LinesMisuse args → genlines args = .error .systemExit) ∧
    (¬ LinesMisuse args →
      (∀ start stop step sc ec, LinesArgs args start stop step sc ec →
        ∃ nums lines a, genlines args = .ok lines ∧ args[1]? = some a ∧
          Steps start (stop + step) step nums ∧
          List.Forall₂ (NumberLine (max 4 a.length) sc ec) nums lines) ∧
      ((¬ ∃ start stop step sc ec, LinesArgs args start stop step sc ec) →
        genlines args = .error .valueError)) := by
  unfold LinesMisuse LinesArgs
  rcases args with _ | ⟨a0, _ | ⟨a1, rest⟩⟩
  · exact ⟨fun _ => rfl, fun h => absurd (.inl (by simp)) h⟩
  · exact ⟨fun _ => rfl, fun h => absurd (.inl (by simp)) h⟩
  have hlong : (List.length (a0 :: a1 :: rest) < 2 ∨ ∃ a ∈ (a0 :: a1 :: rest).take 2, 6 < a.length) ↔
      6 < a0.length ∨ 6 < a1.length := by
    simp
  rw [hlong]
  constructor
  · rintro (h | h)
    · unfold genlines
      simp only
      rw [if_pos h]
    · unfold genlines
      simp only
      rw [if_pos h, ite_self]
  intro hl
  push Not at hl
  have key : ∀ start stop, IntText a0 start → IntText a1 stop → genlines (a0 :: a1 :: rest) = (do
      let step ← intArg (a0 :: a1 :: rest) 2 1
      let startcol ← intArg (a0 :: a1 :: rest) 3 2
      let endcol ← intArg (a0 :: a1 :: rest) 4 7
      let nums ← pyRangeStep start (stop + step) step
      return nums.map (genLine (max 4 a1.length) startcol endcol)) := by
    intro start stop h0 h1
    unfold genlines
    simp only
    rw [if_neg (by omega), if_neg (by omega), pyInt_iff.2 h0, py_bind_ok, pyInt_iff.2 h1, py_bind_ok,
      if_neg (by have := intText_length h1; omega), genWidth_max h1]
  constructor
  · rintro start stop step sc ec ⟨⟨s, hs, h0⟩, ⟨s', hs', h1⟩, h2, h3, h4, hne⟩
    cases hs
    cases hs'
    obtain ⟨nums, hr, hst⟩ := rangeStep_steps (start := start) (stop := stop + step) hne
    refine ⟨nums, nums.map (genLine (max 4 a1.length) sc ec), a1, ?_, rfl, hst, ?_⟩
    · rw [key _ _ h0 h1, intArg_iff.2 h2, py_bind_ok, intArg_iff.2 h3, py_bind_ok, intArg_iff.2 h4,
        py_bind_ok, hr, py_bind_ok]
      rfl
    · rw [List.forall₂_map_right_iff, List.forall₂_same]
      exact fun n _ => genLine_number _ _ _ n
  · intro hn
    by_cases h0 : ∃ start, IntText a0 start
    · obtain ⟨start, h0⟩ := h0
      by_cases h1 : ∃ stop, IntText a1 stop
      · obtain ⟨stop, h1⟩ := h1
        rw [key _ _ h0 h1]
        rcases intArg_cases (a0 :: a1 :: rest) 2 1 with ⟨step, h2⟩ | h2 <;> rw [h2]
        · rw [py_bind_ok]
          rcases intArg_cases (a0 :: a1 :: rest) 3 2 with ⟨sc, h3⟩ | h3 <;> rw [h3]
          · rw [py_bind_ok]
            rcases intArg_cases (a0 :: a1 :: rest) 4 7 with ⟨ec, h4⟩ | h4 <;> rw [h4]
            · rw [py_bind_ok]
              have : step = 0 := not_not.1 fun hz => hn ⟨start, stop, step, sc, ec, ⟨_, rfl, h0⟩,
                ⟨_, rfl, h1⟩, intArg_iff.1 h2, intArg_iff.1 h3, intArg_iff.1 h4, hz⟩
              unfold pyRangeStep
              rw [if_pos this]
              rfl
            · rfl
          · rfl
        · rfl
      · unfold genlines
        simp only
        rw [if_neg (by omega), if_neg (by omega), pyInt_iff.2 h0, py_bind_ok,
          pyInt_error (not_exists.1 h1)]
        rfl
    · unfold genlines
      simp only
      rw [if_neg (by omega), if_neg (by omega), pyInt_error (not_exists.1 h0)]
      rfl

theorem ofDigits_inj (s : List Nat) : ∀ t : List Nat, s.length = t.length → (∀ d ∈ s, d < 10) →
    (∀ d ∈ t, d < 10) → ofDigits 10 s = ofDigits 10 t → s = t := by
  induction s using List.reverseRecOn with
  | nil =>
    intro t hl
    exact fun _ _ _ => (List.eq_nil_of_length_eq_zero hl.symm).symm
  | append_singleton s d ih =>
    intro t hl hs ht h
    rcases List.eq_nil_or_concat t with rfl | ⟨t, e, rfl⟩
    · simp at hl
    · rw [List.concat_eq_append] at *
      rw [ofDigits_append, ofDigits_append] at h
      have h1 := hs d (by simp)
      have h2 := ht e (by simp)
      obtain rfl : d = e := by omega
      rw [ih t (by simpa using hl) (fun x hx => hs x (by simp [hx])) (fun x hx => ht x (by simp [hx]))
        (by omega)]

theorem decimal_inj {s t : Str} {n : Nat} (hs : Decimal s n) (ht : Decimal t n)
    (hl : s.length = t.length) : s = t := by
  have key := ofDigits_inj _ _ (by rw [List.length_map, List.length_map]; exact hl)
    (fun d hd => by
      obtain ⟨c, hc, rfl⟩ := List.mem_map.1 hd
      have h1 := hs.2.1 c hc
      have h2 : '0'.toNat = 48 := rfl
      have h3 : '9'.toNat = 57 := rfl
      omega)
    (fun d hd => by
      obtain ⟨c, hc, rfl⟩ := List.mem_map.1 hd
      have h1 := ht.2.1 c hc
      have h2 : '0'.toNat = 48 := rfl
      have h3 : '9'.toNat = 57 := rfl
      omega)
    (hs.2.2.trans ht.2.2.symm)
  apply List.ext_getElem hl
  intro i h1 h2
  have h3 := List.getElem_of_eq key (i := i) (by simpa using h1)
  simp only [List.getElem_map] at h3
  have h4 := hs.2.1 _ (List.getElem_mem h1)
  have h5 := ht.2.1 _ (List.getElem_mem h2)
  apply Char.ext
  apply UInt32.toNat_inj.1
  show (s[i]).toNat = (t[i]).toNat
  omega

theorem signed_inj {s t : Str} {n : Int} (hs : Signed s n) (ht : Signed t n)
    (hl : s.length = t.length) : s = t := by
  rcases hs with ⟨h0, h⟩ | ⟨h0, u, rfl, h⟩ <;> rcases ht with ⟨h1, h'⟩ | ⟨h1, u', rfl, h'⟩
  · exact decimal_inj h h' hl
  · omega
  · omega
  · rw [decimal_inj h h' (by simpa using hl)]

/-- C168: number, width and columns determine the line. -/
theorem C168_unique {w : Nat} {sc ec n : Int} {l l' : Str} (h : NumberLine w sc ec n l)
    (h' : NumberLine w sc ec n l') : l = l' := by
  obtain ⟨s, ⟨h1, h2, h3⟩, rfl⟩ := h
  obtain ⟨s', ⟨h1', h2', h3'⟩, rfl⟩ := h'
  have := h3 s' h1' h2'
  have := h3' s h1 h2
  rw [signed_inj h1 h1' (by omega)]

/-- C168: first and last number and step determine the numbers. -/
theorem C168_steps_unique {start stop step : Int} {l l' : List Int} (hne : step ≠ 0)
    (h : Steps start stop step l) (h' : Steps start stop step l') : l = l' := by
  rcases lt_or_gt_of_ne hne with hs | hs
  · obtain ⟨h1, h2⟩ := h.2 hs
    obtain ⟨h1', h2'⟩ := h'.2 hs
    have hp : l.Perm l' := (List.perm_ext_iff_of_nodup (h1.imp fun h => by omega)
      (h1'.imp fun h => by omega)).2 fun n => (h2 n).trans (h2' n).symm
    exact hp.eq_of_pairwise (fun a b _ _ h h' => absurd h (by omega)) h1 h1'
  · obtain ⟨h1, h2⟩ := h.1 hs
    obtain ⟨h1', h2'⟩ := h'.1 hs
    have hp : l.Perm l' := (List.perm_ext_iff_of_nodup (h1.imp fun h => by omega)
      (h1'.imp fun h => by omega)).2 fun n => (h2 n).trans (h2' n).symm
    exact hp.eq_of_pairwise (fun a b _ _ h h' => absurd h (by omega)) h1 h1'

/-- C168: the exit status of genlines. -/
theorem C168_status (argv : List Str) :
    StatusIs NO_OPTS (fun _ args => LinesMisuse args)
      (fun _ args => ∃ start stop step sc ec, LinesArgs args start stop step sc ec) argv
      (genlinesStatus argv) := by
  have hg := C153_good.2.2.2.2.2.2
  refine status_is hg ?_ fun os args hm hh => ?_
  · intro e he
    unfold genlinesStatus
    rw [he]
  rcases means_values hg hm with ⟨e, -⟩ | ⟨-, v, e, hv⟩
  · exact absurd e hh
  have h := C168_lines args
  unfold genlinesStatus
  rw [e]
  refine ⟨fun hu => ?_, fun hu => ⟨?_, fun hw => ?_⟩⟩
  · simp only [h.1 hu]
  · rintro ⟨start, stop, step, sc, ec, ha⟩
    obtain ⟨nums, lines, a, h1, -⟩ := (h.2 hu).1 _ _ _ _ _ ha
    simp only [h1]
    rfl
  · simp only [(h.2 hu).2 hw]
    rfl

/-- C168: an underscore in a number, a sign and blanks around it, a number too long, no number, step 0,
and a negative column. -/
example : IntText (py " +1_0 ") 10 ∧
    LinesArgs [py "8", py " +1_0 ", py "2", py "0"] 8 10 2 0 7 ∧
    genlines [py "8", py " +1_0 ", py "2", py "0"] = .ok [py "000008   ", py "000010   "] ∧
    genlinesStatus [py "8", py " +1_0 ", py "2", py "0"] = 0 ∧
    genlinesStatus [py "8", py " +00010"] = 2 ∧ genlinesStatus [py "8", py "1__0"] = 1 ∧
    genlinesStatus [py "8", py "9", py "0"] = 1 ∧ genlinesStatus [py "8", py "9", py "-1"] = 2 := by
  have h : IntText (py " +1_0 ") 10 := pyInt_iff.1 (by decide)
  refine ⟨h, ⟨⟨_, rfl, pyInt_iff.1 (by decide)⟩, ⟨_, rfl, h⟩, .inr ⟨_, rfl, pyInt_iff.1 (by decide)⟩,
    .inr ⟨_, rfl, pyInt_iff.1 (by decide)⟩, .inl ⟨rfl, rfl⟩, by decide⟩, ?_, ?_, ?_, ?_, ?_, ?_⟩ <;>
  decide +kernel

/-- C168: digits of another script, a blank of another width, and a separator that is no blank to `int`
but one to `strip`. -/
example : IntText (py "\u3000١_2") 12 ∧ genlines [py "1", py "１"] = .ok [py " 0001   "] ∧
    (∀ n, ¬ IntText (py "\x1c5") n) ∧ strip (py "\x1c5") = py "5" := by
  refine ⟨pyInt_iff.1 (by decide +kernel), by decide +kernel, fun n hn => ?_, by decide⟩
  have h := pyInt_iff.2 hn
  rw [show pyInt (py "\x1c5") = .error .valueError by decide +kernel] at h
  cases h

end H800
