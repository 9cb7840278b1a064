import Verif.Model.DigitLimit
import Verif.Lemmas.Gen
import Verif.Lemmas.IntText
import Verif.Lemmas.Operands

/-!
C247: genlines and genpages with the interpreter's limit on digits.
-/

namespace H800

open Spec

/-- The same, or ValueError. -/
def OrValueError {α : Type} (x y : Py α) : Prop := x = y ∨ x = .error .valueError

theorem orValue_bind {α β : Type} {x y : Py α} {f g : α → Py β} (h : OrValueError x y)
    (hf : ∀ a, OrValueError (f a) (g a)) : OrValueError (x >>= f) (y >>= g) := by
  rcases h with rfl | rfl
  · cases x with
    | error e => exact .inl rfl
    | ok a => exact hf a
  · exact .inr rfl

theorem orValue_refl {α : Type} (x : Py α) : OrValueError x x := .inl rfl

theorem orValue_int (limit : Nat) (s : Str) : OrValueError (intMax limit s) (pyInt s) := by
  unfold intMax
  split
  · exact .inr rfl
  · exact .inl rfl

theorem orValue_str (limit : Nat) (n : Int) : OrValueError (strMax limit n) (.ok (pyStr n)) := by
  unfold strMax
  split
  · exact .inr rfl
  · exact .inl rfl

theorem orValue_arg (limit : Nat) (args : List Str) (i : Nat) (d : Int) :
    OrValueError (intArgMax limit args i d) (intArg args i d) := by
  unfold intArgMax intArg
  cases args[i]? with
  | none => exact .inl rfl
  | some s => exact orValue_int limit s

/-- genlines.py 28-71 without limit. -/
def genNums (args : List Str) : Py (Nat × Int × Int × List Int) :=
  match args with
  | a0 :: a1 :: _ =>
    if a0.length > 6 then .error .systemExit
    else if a1.length > 6 then .error .systemExit
    else do
      let start ← pyInt a0
      let end_ ← pyInt a1
      let numdigits := (pyStr end_).length
      if numdigits > 6 then .error .systemExit
      else do
        let width := genWidth numdigits a1.length
        let step ← intArg args 2 1
        let startcol ← intArg args 3 2
        let endcol ← intArg args 4 7
        let nums ← pyRangeStep start (end_ + step) step
        return (width, startcol, endcol, nums)
  | _ => .error .systemExit

theorem genlines_nums (args : List Str) :
    genlines args = genNums args >>= fun p => .ok (p.2.2.2.map (genLine p.1 p.2.1 p.2.2.1)) := by
  match args with
  | [] => rfl
  | [_] => rfl
  | a0 :: a1 :: rest =>
    unfold genlines genNums
    dsimp only
    by_cases h0 : a0.length > 6
    · rw [if_pos h0, if_pos h0]; rfl
    rw [if_neg h0, if_neg h0]
    by_cases h1 : a1.length > 6
    · rw [if_pos h1, if_pos h1]; rfl
    rw [if_neg h1, if_neg h1]
    cases pyInt a0 with
    | error e => rfl
    | ok start =>
      cases pyInt a1 with
      | error e => rfl
      | ok end_ =>
        simp only [py_bind_ok]
        split
        · rfl
        · cases intArg (a0 :: a1 :: rest) 2 1 with
          | error e => rfl
          | ok step =>
            cases intArg (a0 :: a1 :: rest) 3 2 with
            | error e => rfl
            | ok a =>
              cases intArg (a0 :: a1 :: rest) 4 7 with
              | error e => rfl
              | ok b =>
                simp only [py_bind_ok]
                cases pyRangeStep start (end_ + step) step <;> rfl

theorem orValue_nums (limit : Nat) (args : List Str) :
    OrValueError (genNumsMax limit args) (genNums args) := by
  match args with
  | [] => exact .inl rfl
  | [_] => exact .inl rfl
  | a0 :: a1 :: rest =>
    unfold genNumsMax genNums
    dsimp only
    split
    · exact .inl rfl
    · split
      · exact .inl rfl
      · refine orValue_bind (orValue_int limit a0) fun start => orValue_bind (orValue_int limit a1)
          fun end_ => ?_
        rcases orValue_str limit end_ with e | e <;> rw [e]
        · simp only [py_bind_ok]
          split
          · exact .inl rfl
          · exact orValue_bind (orValue_arg limit _ _ _) fun step =>
              orValue_bind (orValue_arg limit _ _ _) fun a =>
              orValue_bind (orValue_arg limit _ _ _) fun b => .inl rfl
        · exact .inr rfl

theorem genLoop_prefix (limit : Nat) (line : Int → Str) (nums : List Int) : ∃ k,
    (genLoopMax limit line nums).1 = (nums.map line).take k ∧
    ((genLoopMax limit line nums).2 = .ok () ∧ k = nums.length ∨
      (genLoopMax limit line nums).2 = .error .valueError) := by
  induction nums with
  | nil => exact ⟨0, rfl, .inl ⟨rfl, rfl⟩⟩
  | cons i rest ih =>
    obtain ⟨k, h1, h2⟩ := ih
    rw [genLoopMax]
    rcases orValue_str limit i with e | e <;> rw [e] <;> dsimp only
    · exact ⟨k + 1, by rw [h1]; rfl, h2.imp (fun h => ⟨h.1, by simp [h.2]⟩) id⟩
    · exact ⟨0, rfl, .inr rfl⟩

/-- C247: whatever the limit, genlines prints the lines that it prints without a limit; or the first ones of
them, and ends with ValueError. If it ends with an error without a limit, it prints nothing with one, and
ends with that error or ValueError. -/
theorem C247_genlines (limit : Nat) (args : List Str) :
    (∃ lines k, genlines args = .ok lines ∧ (genlinesMax limit args).1 = lines.take k ∧
      ((genlinesMax limit args).2 = .ok () ∧ k = lines.length ∨
        (genlinesMax limit args).2 = .error .valueError)) ∨
    ∃ e, genlines args = .error e ∧ (genlinesMax limit args).1 = [] ∧
      ((genlinesMax limit args).2 = .error e ∨ (genlinesMax limit args).2 = .error .valueError) := by
  rw [genlines_nums]
  unfold genlinesMax
  rcases orValue_nums limit args with e | e <;> rw [e]
  · cases genNums args with
    | error e => exact .inr ⟨e, rfl, rfl, .inl rfl⟩
    | ok p =>
      obtain ⟨k, h1, h2⟩ := genLoop_prefix limit (genLine p.1 p.2.1 p.2.2.1) p.2.2.2
      exact .inl ⟨_, k, rfl, h1, h2.imp (fun h => ⟨h.1, by simp [h.2]⟩) id⟩
  · cases genNums args with
    | error e => exact .inr ⟨e, rfl, rfl, .inr rfl⟩
    | ok p => exact .inl ⟨_, 0, rfl, rfl, .inr rfl⟩

/-! Short texts. -/

theorem digitVal_lt {c : Char} {d : Nat} (h : digitVal c = some d) : d ≤ 9 := by
  unfold digitVal at h
  split at h
  · cases h
  · next z hz =>
    have := List.find?_some hz
    simp only [Bool.and_eq_true, decide_eq_true_eq] at this
    cases h
    omega

theorem pyDigits_lt {acc v : Nat} {s : Str} (h : pyDigits acc s = some v) :
    v < (acc + 1) * 10 ^ s.length := by
  induction acc, s using pyDigits.induct with
  | case1 acc => simp only [pyDigits, Option.some.injEq] at h; subst h; simp
  | case2 acc c s hd => rw [pyDigits, hd] at h; cases h
  | case3 acc c s d hd ih =>
    rw [pyDigits, hd] at h
    have h1 := ih h
    have hd9 := digitVal_lt hd
    refine Nat.lt_of_lt_of_le h1 ?_
    simp only [List.length_cons, pow_succ]
    have : 10 * acc + d + 1 ≤ (acc + 1) * 10 := by omega
    calc (10 * acc + d + 1) * 10 ^ s.length ≤ (acc + 1) * 10 * 10 ^ s.length := Nat.mul_le_mul_right _ this
      _ ≤ (acc + 1) * (10 ^ s.length * 10 * 10) := by
        have : 0 < 10 ^ s.length := by positivity
        nlinarith
  | case4 acc c s hn hd => rw [pyDigits, hd] at h; cases h; assumption
  | case5 acc c s hn d hd ih =>
    rw [pyDigits, hd] at h
    · have h1 := ih h
      have hd9 := digitVal_lt hd
      refine Nat.lt_of_lt_of_le h1 ?_
      simp only [List.length_cons, pow_succ]
      have : 10 * acc + d + 1 ≤ (acc + 1) * 10 := by omega
      calc (10 * acc + d + 1) * 10 ^ s.length ≤ (acc + 1) * 10 * 10 ^ s.length :=
            Nat.mul_le_mul_right _ this
        _ = (acc + 1) * (10 ^ s.length * 10) := by ring
    · assumption

theorem pyNat_lt {s : Str} {v : Nat} (h : pyNat s = some v) : v < 10 ^ s.length := by
  cases s with
  | nil => cases h
  | cons c s =>
    rw [pyNat] at h
    split at h
    · cases h
    · next d hd =>
      have h1 := pyDigits_lt h
      have := digitVal_lt hd
      refine Nat.lt_of_lt_of_le h1 ?_
      rw [List.length_cons, pow_succ, Nat.mul_comm]
      exact Nat.mul_le_mul_left _ (by omega)

theorem intStrip_length (s : Str) : (intStrip s).length ≤ s.length := by
  obtain ⟨a, b, _, _, h⟩ := intStrip_decomp s
  have := congrArg List.length h
  simp only [List.length_append] at this
  omega

/-- A text of so many characters tells a number of not more digits. -/
theorem pyInt_lt {s : Str} {v : Int} (h : pyInt s = .ok v) : v.natAbs < 10 ^ s.length := by
  have hl := intStrip_length s
  have up : ∀ {t : Str} {n : Nat}, pyNat t = some n → t.length ≤ (intStrip s).length → n < 10 ^ s.length :=
    fun ht hle => Nat.lt_of_lt_of_le (pyNat_lt ht) (Nat.pow_le_pow_right (by omega) (by omega))
  unfold pyInt at h
  split at h
  · next t ht =>
    split at h
    · next n hn => cases h; rw [Int.natAbs_neg]; exact up hn (by rw [ht]; simp)
    · cases h
  · next t ht =>
    split at h
    · next n hn => cases h; exact up hn (by rw [ht]; simp)
    · cases h
  · split at h
    · next n hn => cases h; exact up hn (Nat.le_refl _)
    · cases h

theorem intMax_short {limit : Nat} {s : Str} (h : s.length ≤ limit) : intMax limit s = pyInt s := by
  unfold intMax
  rw [if_neg]
  have : digitCount s ≤ s.length := List.length_filter_le ..
  omega

theorem strMax_small {limit : Nat} {n : Int} (hl : 1 ≤ limit) (h : n.natAbs < 10 ^ limit) :
    strMax limit n = .ok (pyStr n) := by
  unfold strMax
  rw [if_neg]
  have := numeral_length hl h
  omega

theorem intArg_lt {args : List Str} {i limit : Nat} {d v : Int} (hl : ∀ a ∈ args, a.length < limit)
    (hd : d.natAbs < 10 ^ (limit - 1)) (h : intArg args i d = .ok v) : v.natAbs < 10 ^ (limit - 1) := by
  unfold intArg at h
  split at h
  · cases h; exact hd
  · next s hs =>
    have := hl s (List.mem_of_getElem? hs)
    exact Nat.lt_of_lt_of_le (pyInt_lt h) (Nat.pow_le_pow_right (by omega) (by omega))

/-- The numbers of a range lie between its ends. -/
theorem pyRangeStep_mem {start stop step i : Int} {l : List Int} (h : pyRangeStep start stop step = .ok l)
    (hi : i ∈ l) : (start ≤ i ∧ i < stop) ∨ stop < i ∧ i ≤ start := by
  unfold pyRangeStep at h
  split at h
  · cases h
  · next h0 =>
    cases h
    obtain ⟨k, hk, rfl⟩ := List.mem_map.1 hi
    rw [List.mem_range] at hk
    split at hk
    · next hs =>
      have h1 : (k : Int) + 1 ≤ (stop - start + step - 1) / step := by omega
      have h2 := (Int.le_ediv_iff_mul_le hs).1 h1
      have h3 : (0 : Int) ≤ k * step := Int.mul_nonneg (by omega) (by omega)
      have h4 : ((k : Int) + 1) * step = k * step + step := by ring
      exact .inl ⟨by omega, by omega⟩
    · next hs =>
      have hp : 0 < -step := by omega
      have h1 : (k : Int) + 1 ≤ (start - stop + -step - 1) / -step := by omega
      have h2 := (Int.le_ediv_iff_mul_le hp).1 h1
      have h3 : (0 : Int) ≤ k * -step := Int.mul_nonneg (by omega) (by omega)
      have h4 : ((k : Int) + 1) * -step = k * -step + -step := by ring
      have h5 : (k : Int) * -step = -(k * step) := by ring
      exact .inr ⟨by omega, by omega⟩

theorem genLoop_small {limit : Nat} (hl : 1 ≤ limit) (line : Int → Str) (nums : List Int)
    (h : ∀ i ∈ nums, i.natAbs < 10 ^ limit) : genLoopMax limit line nums = (nums.map line, .ok ()) := by
  induction nums with
  | nil => rfl
  | cons i rest ih =>
    rw [genLoopMax, strMax_small hl (h i List.mem_cons_self)]
    dsimp only
    rw [ih fun j hj => h j (List.mem_cons_of_mem _ hj)]
    rfl

theorem intArgMax_short {args : List Str} {limit : Nat} (hl : ∀ a ∈ args, a.length < limit) (i : Nat)
    (d : Int) : intArgMax limit args i d = intArg args i d := by
  unfold intArgMax intArg
  cases hs : args[i]? with
  | none => rfl
  | some s => exact intMax_short (Nat.le_of_lt (hl s (List.mem_of_getElem? hs)))

theorem genNums_short {limit : Nat} (h8 : 8 ≤ limit) {args : List Str}
    (hl : ∀ a ∈ args, a.length < limit) : genNumsMax limit args = genNums args ∧
      ∀ p, genNums args = .ok p → ∀ i ∈ p.2.2.2, i.natAbs < 10 ^ limit := by
  match args with
  | [] => exact ⟨rfl, fun p h => nomatch h⟩
  | [_] => exact ⟨rfl, fun p h => nomatch h⟩
  | a0 :: a1 :: rest =>
    unfold genNumsMax genNums
    dsimp only
    by_cases h0 : a0.length > 6
    · rw [if_pos h0, if_pos h0]; exact ⟨rfl, fun p h => nomatch h⟩
    rw [if_neg h0, if_neg h0]
    by_cases h1 : a1.length > 6
    · rw [if_pos h1, if_pos h1]; exact ⟨rfl, fun p h => nomatch h⟩
    rw [if_neg h1, if_neg h1]
    rw [intMax_short (by omega), intMax_short (by omega)]
    have six : ∀ {s : Str} {v : Int}, ¬ s.length > 6 → pyInt s = .ok v → v.natAbs < 10 ^ 6 := fun hs hv =>
      Nat.lt_of_lt_of_le (pyInt_lt hv) (Nat.pow_le_pow_right (by omega) (by omega))
    have hpow : 10 ^ 7 ≤ 10 ^ (limit - 1) := Nat.pow_le_pow_right (by omega) (by omega)
    have hsucc : 10 ^ limit = 10 ^ (limit - 1) * 10 := by rw [← pow_succ]; congr 1; omega
    cases hs : pyInt a0 with
    | error e => exact ⟨rfl, fun p h => nomatch h⟩
    | ok start =>
      cases he : pyInt a1 with
      | error e => exact ⟨rfl, fun p h => nomatch h⟩
      | ok end_ =>
        have b0 := six h0 hs
        have b1 := six h1 he
        simp only [py_bind_ok]
        rw [strMax_small (by omega) (by omega)]
        simp only [py_bind_ok]
        split
        · exact ⟨rfl, fun p h => nomatch h⟩
        · refine ⟨by simp only [intArgMax_short hl], fun p h i hi => ?_⟩
          obtain ⟨step, hst, h⟩ := py_bind_inv h
          obtain ⟨a, _, h⟩ := py_bind_inv h
          obtain ⟨b, _, h⟩ := py_bind_inv h
          obtain ⟨nums, hn, h⟩ := py_bind_inv h
          cases h
          have b2 := intArg_lt hl (by show 1 < _; omega) hst
          rcases pyRangeStep_mem hn hi with ⟨c1, c2⟩ | ⟨c1, c2⟩ <;> omega

/-- C247: if all arguments are shorter than the limit, genlines does what it does without a limit. -/
theorem C247_genlines_same (limit : Nat) (args : List Str) (h8 : 8 ≤ limit)
    (hl : ∀ a ∈ args, a.length < limit) : genlinesMax limit args = match genlines args with
      | .error e => ([], .error e)
      | .ok lines => (lines, .ok ()) := by
  obtain ⟨h1, h2⟩ := genNums_short h8 hl
  rw [genlines_nums]
  unfold genlinesMax
  rw [h1]
  cases hp : genNums args with
  | error e => rfl
  | ok p => exact genLoop_small (by omega) _ _ (h2 p hp)

/-! genpages -/

theorem orValue_pages (limit : Nat) (line : Str) : OrValueError (pagesOfMax limit line) (pagesOf line) := by
  unfold pagesOfMax pagesOf
  refine orValue_bind (orValue_refl _) fun w => ?_
  dsimp only
  split
  · exact orValue_bind (orValue_int _ _) fun a => orValue_bind (orValue_int _ _) fun b => .inl rfl
  · exact orValue_bind (orValue_int _ _) fun a => .inl rfl

theorem orValue_step (limit : Nat) (st : PagesState) (line : Str) :
    OrValueError (pagesStepMax limit st line) (pagesStep st line) := by
  have tail : ∀ st : PagesState, OrValueError
      (if hasPrefix (py "# Pages: ") line then do
        let p ← pagesOfMax limit line
        return { st with pages := some p }
      else return st)
      (if hasPrefix (py "# Pages: ") line then do
        let p ← pagesOf line
        return { st with pages := some p }
      else return st) := by
    intro st
    split
    · exact orValue_bind (orValue_pages _ _) fun p => .inl rfl
    · exact .inl rfl
  unfold pagesStepMax pagesStep
  dsimp only
  split
  · exact orValue_bind (orValue_refl _) fun s => tail _
  · exact tail st

theorem orValue_fold (limit : Nat) (lines : List Str) (st : PagesState) :
    OrValueError (lines.foldlM (pagesStepMax limit) st) (lines.foldlM pagesStep st) := by
  induction lines generalizing st with
  | nil => exact .inl rfl
  | cons l lines ih =>
    rw [List.foldlM_cons, List.foldlM_cons]
    exact orValue_bind (orValue_step limit st l) fun st' => ih st'

/-- C247: whatever the limit, genpages does what it does without a limit, or leaves all files as they were
and ends with ValueError. -/
theorem C247_genpages (limit : Nat) (fs : FileSystem) (fuel : Nat) (args : List Str) :
    genpagesMax limit fs fuel args = genpages fs fuel args ∨
    genpagesMax limit fs fuel args = (fs, .error .valueError) := by
  cases args with
  | nil => exact .inl rfl
  | cons f args =>
    unfold genpagesMax genpages
    dsimp only
    cases fs f with
    | none => exact .inl rfl
    | some text =>
      dsimp only
      have hi : OrValueError (pagesInfoMax limit fs fuel (readlines text))
          (pagesInfo fs fuel (readlines text)) := by
        unfold pagesInfoMax pagesInfo
        exact orValue_bind (orValue_refl _) fun d => orValue_fold limit _ _
      rcases hi with e | e <;> rw [e]
      · cases pagesInfo fs fuel (readlines text) with
        | error e => exact .inl rfl
        | ok st =>
          dsimp only
          cases st.section_ with
          | none => exact .inl rfl
          | some sec =>
            dsimp only
            cases st.pages with
            | none => exact .inl rfl
            | some p =>
              obtain ⟨start, end_⟩ := p
              dsimp only
              split
              · exact .inl rfl
              · have loop : ∀ l, OrValueError (pagesLoopMax limit start l) (.ok ()) := by
                  intro l
                  induction l with
                  | nil => exact .inl rfl
                  | cons p l ih =>
                    rw [pagesLoopMax]
                    rcases orValue_str limit p with e | e <;> rw [e]
                    · rcases orValue_str limit (p - start + 1) with e | e <;> rw [e]
                      · exact ih
                      · exact .inr rfl
                    · exact .inr rfl
                rcases orValue_str limit end_ with e | e <;> rw [e]
                · rcases loop (pyRange start (end_ + 1)) with e | e <;> rw [e]
                  · exact .inl rfl
                  · exact .inr rfl
                · exact .inr rfl
      · exact .inr rfl

/-! genpages on files of short lines -/

theorem wordsAux_length (u s : Str) : ∀ w ∈ wordsAux u s, w.length ≤ u.length + s.length := by
  induction s generalizing u with
  | nil =>
    intro w hw
    rw [wordsAux] at hw
    split at hw
    · cases hw
    · rw [List.mem_singleton.1 hw]; simp
  | cons x s ih =>
    intro w hw
    rw [wordsAux] at hw
    split at hw
    · split at hw
      · have := ih [] w hw
        simp at this ⊢
        omega
      · rcases List.mem_cons.1 hw with rfl | hw
        · simp
        · have := ih [] w hw
          simp at this ⊢
          omega
    · have := ih (x :: u) w hw
      simp at this ⊢
      omega

theorem strip_length (s : Str) : (strip s).length ≤ s.length := by
  unfold strip
  rw [List.length_reverse]
  refine Nat.le_trans (List.dropWhile_sublist _).length_le ?_
  rw [List.length_reverse]
  exact (List.dropWhile_sublist _).length_le

theorem pySplit_length (d : Char) (s : Str) : ∀ w ∈ pySplit d s, w.length ≤ s.length := by
  induction s with
  | nil =>
    intro w hw
    rw [pySplit] at hw
    rw [List.mem_singleton.1 hw]
  | cons x s ih =>
    intro w hw
    rw [pySplit] at hw
    split at hw
    · rcases List.mem_cons.1 hw with rfl | hw
      · simp
      · exact Nat.le_succ_of_le (ih w hw)
    · split at hw
      · rw [List.mem_singleton.1 hw]; simp
      · rename_i y ys e
        rcases List.mem_cons.1 hw with rfl | hw
        · have := ih y (by rw [e]; exact List.mem_cons_self)
          simp only [List.length_cons]
          omega
        · exact Nat.le_succ_of_le (ih w (by rw [e]; exact List.mem_cons_of_mem _ hw))

theorem pySplit_getD_length (d : Char) (s : Str) (i : Nat) : ((pySplit d s).getD i []).length ≤ s.length := by
  rw [List.getD_eq_getElem?_getD]
  cases h : (pySplit d s)[i]? with
  | none => simp
  | some w => exact pySplit_length d s w (List.mem_of_getElem? h)

theorem pagesOf_short {limit : Nat} {line : Str} (hl : line.length < limit) :
    pagesOfMax limit line = pagesOf line ∧ ∀ p, pagesOf line = .ok p →
      p.1.natAbs < 10 ^ (limit - 1) ∧ p.2.natAbs < 10 ^ (limit - 1) := by
  unfold pagesOfMax pagesOf
  cases hw : getE (pyWords line) 2 with
  | error e => exact ⟨rfl, fun p h => nomatch h⟩
  | ok w =>
    simp only [py_bind_ok]
    have hwl : (strip w).length ≤ line.length := by
      have hm : w ∈ pyWords line := by
        unfold getE at hw
        split at hw
        · next x hx => cases hw; exact List.mem_of_getElem? hx
        · cases hw
      have h1 := wordsAux_length [] line w hm
      have h2 := strip_length w
      simp only [List.length_nil, Nat.zero_add] at h1
      omega
    have small : ∀ {s : Str} {v : Int}, s.length ≤ (strip w).length → pyInt s = .ok v →
        v.natAbs < 10 ^ (limit - 1) := fun hs hv =>
      Nat.lt_of_lt_of_le (pyInt_lt hv) (Nat.pow_le_pow_right (by omega) (by omega))
    have h0 := pySplit_getD_length '-' (strip w) 0
    have h1 := pySplit_getD_length '-' (strip w) 1
    split
    · rw [intMax_short (by omega), intMax_short (by omega)]
      refine ⟨rfl, fun p h => ?_⟩
      obtain ⟨a, ha, h⟩ := py_bind_inv h
      obtain ⟨b, hb, h⟩ := py_bind_inv h
      cases h
      exact ⟨small h0 ha, small h1 hb⟩
    · rw [intMax_short (by omega)]
      refine ⟨rfl, fun p h => ?_⟩
      obtain ⟨a, ha, h⟩ := py_bind_inv h
      cases h
      exact ⟨small (Nat.le_refl _) ha, small (Nat.le_refl _) ha⟩

/-- The pages told so far have fewer digits than the limit. -/
def PagesSmall (limit : Nat) (st : PagesState) : Prop :=
  ∀ p, st.pages = some p → p.1.natAbs < 10 ^ (limit - 1) ∧ p.2.natAbs < 10 ^ (limit - 1)

theorem pagesStep_short {limit : Nat} {line : Str} (hl : line.length < limit) {st : PagesState}
    (hs : PagesSmall limit st) : pagesStepMax limit st line = pagesStep st line ∧
      ∀ st', pagesStep st line = .ok st' → PagesSmall limit st' := by
  obtain ⟨h1, h2⟩ := pagesOf_short hl
  unfold pagesStepMax pagesStep
  rw [h1]
  refine ⟨rfl, fun st' h => ?_⟩
  have tail : ∀ {st : PagesState}, PagesSmall limit st →
      (if hasPrefix (py "# Pages: ") line then do
        let p ← pagesOf line
        return { st with pages := some p }
      else return st) = .ok st' → PagesSmall limit st' := by
    intro st hs h
    split at h
    · obtain ⟨p, hp, h⟩ := py_bind_inv h
      cases h
      intro q hq
      cases hq
      exact h2 p hp
    · cases h; exact hs
  dsimp only at h
  split at h
  · obtain ⟨s, _, h⟩ := py_bind_inv h
    exact tail (st := { st with section_ := some s, col8 := .str (py "@") }) hs h
  · exact tail hs h

theorem pagesFold_short {limit : Nat} (lines : List Str) (hl : ∀ l ∈ lines, l.length < limit) :
    ∀ {st : PagesState}, PagesSmall limit st →
      lines.foldlM (pagesStepMax limit) st = lines.foldlM pagesStep st ∧
      ∀ st', lines.foldlM pagesStep st = .ok st' → PagesSmall limit st' := by
  induction lines with
  | nil => exact fun hs => ⟨rfl, fun st' h => by cases h; exact hs⟩
  | cons l lines ih =>
    intro st hs
    obtain ⟨h1, h2⟩ := pagesStep_short (hl l List.mem_cons_self) hs
    rw [List.foldlM_cons, List.foldlM_cons, h1]
    cases hp : pagesStep st l with
    | error e => exact ⟨rfl, fun st' h => nomatch h⟩
    | ok st1 => exact ih (fun x hx => hl x (List.mem_cons_of_mem _ hx)) (h2 st1 hp)

theorem pagesLoop_small {limit : Nat} (hl : 1 ≤ limit) {start : Int} (l : List Int)
    (h : ∀ p ∈ l, p.natAbs < 10 ^ limit ∧ (p - start + 1).natAbs < 10 ^ limit) :
    pagesLoopMax limit start l = .ok () := by
  induction l with
  | nil => rfl
  | cons p l ih =>
    obtain ⟨a, b⟩ := h p List.mem_cons_self
    rw [pagesLoopMax, strMax_small hl a, strMax_small hl b]
    exact ih fun q hq => h q (List.mem_cons_of_mem _ hq)

/-- C247: if all lines of the file are shorter than the limit, genpages does what it does without a
limit. -/
theorem C247_genpages_same (limit : Nat) (fs : FileSystem) (fuel : Nat) (args : List Str)
    (hl : ∀ f ∈ args.head?, ∀ text, fs f = some text → ∀ l ∈ readlines text, l.length < limit) :
    genpagesMax limit fs fuel args = genpages fs fuel args := by
  cases args with
  | nil => rfl
  | cons f args =>
    unfold genpagesMax genpages
    dsimp only
    cases hf : fs f with
    | none => rfl
    | some text =>
      dsimp only
      have hi : pagesInfoMax limit fs fuel (readlines text) = pagesInfo fs fuel (readlines text) ∧
          ∀ st, pagesInfo fs fuel (readlines text) = .ok st → PagesSmall limit st := by
        unfold pagesInfoMax pagesInfo
        cases ArgusDeck.init fs fuel (some (readlines text)) none DEFAULT_WIDTH DEFAULT_FIELDS argusClass with
        | error e => exact ⟨rfl, fun st h => nomatch h⟩
        | ok d => exact pagesFold_short _ (hl f rfl text hf) (fun p h => nomatch h)
      rw [hi.1]
      cases hp : pagesInfo fs fuel (readlines text) with
      | error e => rfl
      | ok st =>
        have hs := hi.2 st hp
        dsimp only
        cases st.section_ with
        | none => rfl
        | some sec =>
          dsimp only
          cases hq : st.pages with
          | none => rfl
          | some p =>
            obtain ⟨start, end_⟩ := p
            obtain ⟨b1, b2⟩ := hs _ hq
            dsimp only at b1 b2 ⊢
            split
            · rfl
            · next hle =>
              have h1 : 1 ≤ limit := by
                cases ht : readlines text with
                | nil =>
                  exfalso
                  rw [ht] at hp
                  unfold pagesInfo at hp
                  obtain ⟨d, _, hp⟩ := py_bind_inv hp
                  cases hp
                  cases hq
                | cons l ls =>
                  have := hl f rfl text hf l (by rw [ht]; exact List.mem_cons_self)
                  omega
              have hsucc : 10 ^ limit = 10 ^ (limit - 1) * 10 := by rw [← pow_succ]; congr 1; omega
              rw [strMax_small h1 (by omega), pagesLoop_small h1]
              intro q hq
              unfold pyRange at hq
              obtain ⟨k, hk, rfl⟩ := List.mem_map.1 hq
              rw [List.mem_range] at hk
              constructor <;> omega

/-- A limit of 8 digits: the third argument has nine; and the second number of the range has nine. -/
example : genlinesMax 8 [py "1", py "9", py "100000000"] = ([], .error .valueError) ∧
    genlinesMax 8 [py "1", py "9", py "99999999"] = ([py " 0001   "], .error .valueError) ∧
    genlinesMax 8 [py "1", py "9", py "9999999"] = ([py " 0001   ", py " 10000000   "], .ok ()) := by
  decide +kernel

example : (8 ≤ 8) ∧ ∀ a ∈ [py "1", py "9", py "9999999"], a.length < 8 := by decide +kernel

/-- A file whose page number has nine digits. -/
def longPages : FileSystem := fun f =>
  if f = py "A.arg" then some (py "# Pages: 123456789\nL      @A\n") else none

/-- With a limit of 8 digits it is left as it was; with one of 30 its lines are short. -/
example : (genpagesMax 8 longPages 10 [py "A.arg"]).2 = .error .valueError ∧
    (genpagesMax 8 longPages 10 [py "A.arg"]).1 (py "A.arg") = longPages (py "A.arg") ∧
    (genpagesMax 30 longPages 10 [py "A.arg"]).2 = .ok () ∧
    ∀ f ∈ ([py "A.arg"] : List Str).head?, ∀ text, longPages f = some text →
      ∀ l ∈ readlines text, l.length < 30 := by
  refine ⟨by decide +kernel, by decide +kernel, by decide +kernel, ?_⟩
  intro f hf text h
  cases hf
  cases h
  decide +kernel

end H800
