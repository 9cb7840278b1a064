import Verif.Lemmas.Word
import Verif.Spec.Memory

/-! Normal forms of the memory operations. -/

namespace H800

open Spec

theorem pyRange_cons (s e : Int) :
    pyRange s e = if s < e then s :: pyRange (s + 1) e else [] := by
  unfold pyRange
  by_cases h : s < e
  · rw [if_pos h]
    have : (e - s).toNat = (e - (s + 1)).toNat + 1 := by omega
    rw [this, List.range_succ_eq_map, List.map_cons, List.map_map]
    congr 1
    · simp
    · apply List.map_congr_left
      intro a _
      simp only [Function.comp, Nat.cast_succ]; omega
  · rw [if_neg h]
    have : (e - s).toNat = 0 := by omega
    rw [this]; rfl

theorem mem_pyRange (s e x : Int) : x ∈ pyRange s e ↔ s ≤ x ∧ x < e := by
  unfold pyRange
  simp only [List.mem_map, List.mem_range]
  constructor
  · rintro ⟨a, ha, rfl⟩; omega
  · intro h; exact ⟨(x - s).toNat, by omega, by omega⟩

namespace MemoryBank

/-- The bank holding the values `vs`. -/
def mkBank (vs : List Int) (c : Nat) : MemoryBank := ⟨vs.map mkWord, c⟩

theorem len_mk (vs : List Int) (c : Nat) : (mkBank vs c).len = vs.length := by
  simp [len, mkBank]

theorem word_mk (vs : List Int) (c : Nat) (a : Int) :
    (mkBank vs c).word a = if h : 0 ≤ a ∧ a.toNat < vs.length then .ok (mkWord (vs[a.toNat]'h.2))
      else .error .keyError := by
  unfold word mkBank
  by_cases h0 : a < 0
  · rw [if_pos h0, dif_neg (by omega)]
  · rw [if_neg h0]
    by_cases h1 : a.toNat < vs.length
    · rw [dif_pos ⟨by omega, h1⟩]
      simp [h1]
    · rw [dif_neg (by omega)]
      simp [h1]

theorem get_mk (vs : List Int) (c : Nat) (a : Int) :
    (mkBank vs c).get a = if h : 0 ≤ a ∧ a.toNat < vs.length then .ok (vs[a.toNat]'h.2)
      else .error .keyError := by
  unfold get
  rw [word_mk]
  split <;> rfl

theorem set_mk (vs : List Int) (c : Nat) (a v : Int) :
    (mkBank vs c).set a v = if 0 ≤ a ∧ a.toNat < vs.length then
        (if Fits 48 v then (mkBank (vs.set a.toNat v) c, .ok ())
          else (mkBank vs c, .error .valueError))
      else (mkBank vs c, .error .keyError) := by
  unfold set
  rw [word_mk]
  by_cases h : 0 ≤ a ∧ a.toNat < vs.length
  · rw [dif_pos h, if_pos h]
    simp only [word_setValue]
    by_cases hv : Fits 48 v
    · simp only [if_pos hv]
      simp [mkBank, List.map_set]
    · simp only [if_neg hv]
      congr 1
      simp only [mkBank]
      congr 1
      rw [← List.map_set, List.set_getElem_self]
  · rw [dif_neg h, if_neg h]

theorem setList_spec (k : Nat) (vs : List Int) (c : Nat) (s e v : Int) (hk : (e - s).toNat = k)
    (hs : 0 ≤ s) (hv : Fits 48 v) :
    ∃ vs', ((mkBank vs c).setList v (pyRange s e)) =
        (mkBank vs' c, if s < e ∧ (vs.length : Int) < e then .error .keyError else .ok ()) ∧
      vs'.length = vs.length ∧
      ∀ x : Nat, vs'[x]? = if (s ≤ (x : Int) ∧ (x : Int) < e) ∧ x < vs.length then some v else vs[x]? := by
  induction k generalizing s vs with
  | zero =>
    rw [pyRange_cons, if_neg (by omega)]
    refine ⟨vs, ?_, rfl, ?_⟩
    · rw [if_neg (by omega)]; rfl
    · intro x; rw [if_neg (by omega)]
  | succ k ih =>
    rw [pyRange_cons, if_pos (by omega)]
    unfold setList
    rw [set_mk]
    by_cases h : 0 ≤ s ∧ s.toNat < vs.length
    · rw [if_pos h, if_pos hv]
      simp only
      obtain ⟨vs', h1, h2, h3⟩ := ih (vs.set s.toNat v) (s + 1) (by omega) (by omega)
      refine ⟨vs', ?_, by simpa using h2, ?_⟩
      · rw [h1]
        congr 1
        simp only [List.length_set]
        by_cases hh : s < e ∧ (vs.length : Int) < e
        · rw [if_pos hh, if_pos (by omega)]
        · rw [if_neg hh, if_neg (by omega)]
      · intro x
        rw [h3 x]
        simp only [List.length_set, List.getElem?_set]
        by_cases hx : x < vs.length
        · by_cases hxs : s.toNat = x
          · have e1 : ¬ ((s + 1 ≤ (x:Int) ∧ (x:Int) < e) ∧ x < vs.length) := by omega
            have e2 : (s ≤ (x:Int) ∧ (x:Int) < e) ∧ x < vs.length := by omega
            rw [if_neg e1, if_pos e2, if_pos hxs, if_pos (by omega)]
          · rw [if_neg hxs]
            by_cases hr : s + 1 ≤ (x:Int) ∧ (x:Int) < e
            · rw [if_pos ⟨hr, hx⟩, if_pos (by omega)]
            · rw [if_neg (by omega), if_neg (by omega)]
        · rw [if_neg (by omega), if_neg (by omega), if_neg (by omega)]
    · rw [if_neg h]
      refine ⟨vs, ?_, rfl, ?_⟩
      · rw [if_pos (by omega)]
      · intro x; rw [if_neg (by omega)]

/-- The representation invariant of a bank of `N` words. -/
def Rep (m : MemoryBank) (N : Nat) (mem : Int → Int) : Prop :=
  ∃ vs c, m = mkBank vs c ∧ vs.length = N ∧
    ∀ x : Nat, x < N → vs[x]? = some (mem x) ∧ Fits 48 (mem x)

theorem loop_fst (fuel : Nat) (vs : List Int) (c : Nat) :
    ∃ c', (loop fuel (mkBank vs c)).1 = mkBank vs c' := by
  induction fuel generalizing c with
  | zero => exact ⟨c, rfl⟩
  | succ fuel ih =>
    unfold loop next
    by_cases h : (mkBank vs c).current ≥ (mkBank vs c).len
    · simp only [if_pos h]; exact ⟨c, rfl⟩
    · simp only [if_neg h]; exact ih (c + 1)

theorem clear_eq (m : MemoryBank) : m.clear = m.setList 0 (pyRange 0 m.len) := by
  unfold clear pyRange
  congr 1
  simp

theorem run_rep (m : MemoryBank) (N : Nat) (mem : Int → Int) (op : MemOp) (h : Rep m N mem) :
    Rep (op.run m) N (memStep N mem op) := by
  obtain ⟨vs, c, rfl, hl, hx⟩ := h
  cases op with
  | write a v =>
    simp only [MemOp.run, set_mk, memStep]
    by_cases ha : 0 ≤ a ∧ a.toNat < vs.length
    · rw [if_pos ha]
      by_cases hv : Fits 48 v
      · rw [if_pos hv]
        refine ⟨vs.set a.toNat v, c, rfl, by simpa using hl, ?_⟩
        intro x hxN
        beta_reduce
        simp only [List.getElem?_set]
        by_cases hxa : (x : Int) = a
        · have hc : (x:Int) = a ∧ (0 ≤ a ∧ a < (N:Int)) ∧ Fits 48 v := ⟨hxa, by omega, hv⟩
          rw [if_pos (by omega), if_pos (by omega), if_pos hc]; exact ⟨rfl, hv⟩
        · have hc : ¬ ((x:Int) = a ∧ (0 ≤ a ∧ a < (N:Int)) ∧ Fits 48 v) := fun h => hxa h.1
          rw [if_neg (by omega), if_neg hc]; exact hx x hxN
      · rw [if_neg hv]
        refine ⟨vs, c, rfl, hl, ?_⟩
        intro x hxN
        beta_reduce
        have hc : ¬ ((x:Int) = a ∧ (0 ≤ a ∧ a < (N:Int)) ∧ Fits 48 v) := fun h => hv h.2.2
        rw [if_neg hc]; exact hx x hxN
    · rw [if_neg ha]
      refine ⟨vs, c, rfl, hl, ?_⟩
      intro x hxN
      beta_reduce
      have hc : ¬ ((x:Int) = a ∧ (0 ≤ a ∧ a < (N:Int)) ∧ Fits 48 v) := by omega
      rw [if_neg hc]; exact hx x hxN
  | fill s e v =>
    cases s with
    | none => exact ⟨vs, c, rfl, hl, hx⟩
    | some s =>
      cases e with
      | none => exact ⟨vs, c, rfl, hl, hx⟩
      | some e =>
        simp only [MemOp.run, setSlice, BitField.needInt, memStep]
        by_cases hv : Fits 48 v
        · by_cases hs : 0 ≤ s
          · obtain ⟨vs', h1, h2, h3⟩ := setList_spec _ vs c s e v rfl hs hv
            rw [h1]
            refine ⟨vs', c, rfl, by omega, ?_⟩
            intro x hxN
            beta_reduce
            rw [h3 x]
            by_cases hr : s ≤ (x:Int) ∧ (x:Int) < e
            · rw [if_pos ⟨hr, by omega⟩, if_pos ⟨hr, hs, hv⟩]; exact ⟨rfl, hv⟩
            · rw [if_neg (fun h => hr h.1), if_neg (fun h => hr h.1)]; exact hx x hxN
          · have : ((mkBank vs c).setList v (pyRange s e)).1 = mkBank vs c := by
              rw [pyRange_cons]
              split
              · unfold setList; rw [set_mk, if_neg (by omega)]
              · rfl
            rw [this]
            refine ⟨vs, c, rfl, hl, ?_⟩
            intro x hxN
            beta_reduce
            rw [if_neg (fun h => hs h.2.1)]; exact hx x hxN
        · have : ((mkBank vs c).setList v (pyRange s e)).1 = mkBank vs c := by
            rw [pyRange_cons]
            split
            · unfold setList; rw [set_mk]
              by_cases hs : 0 ≤ s ∧ s.toNat < vs.length
              · rw [if_pos hs, if_neg hv]
              · rw [if_neg hs]
            · rfl
          rw [this]
          refine ⟨vs, c, rfl, hl, ?_⟩
          intro x hxN
          beta_reduce
          rw [if_neg (fun h => hv h.2.2)]; exact hx x hxN
  | clear =>
    simp only [MemOp.run, clear_eq, memStep]
    have h0 : Fits 48 0 := by decide
    obtain ⟨vs', h1, h2, h3⟩ := setList_spec _ vs c 0 (mkBank vs c).len 0 rfl (le_refl _) h0
    rw [h1]
    refine ⟨vs', c, rfl, by omega, ?_⟩
    intro x hxN
    beta_reduce
    rw [h3 x, len_mk, if_pos (by omega)]
    exact ⟨rfl, h0⟩
  | next =>
    simp only [MemOp.run, next, memStep]
    split
    · exact ⟨vs, c, rfl, hl, hx⟩
    · exact ⟨vs, c + 1, rfl, hl, hx⟩
  | forLoop =>
    obtain ⟨c', hc'⟩ := loop_fst ((mkBank vs c).len + 1) vs c
    simp only [MemOp.run, forLoop, memStep]
    rw [hc']
    exact ⟨vs, c', rfl, hl, hx⟩

theorem init_eq : MemoryBank.init = .ok (mkBank (List.replicate 2048 0) 0) := by
  unfold MemoryBank.init
  rw [word_init, if_pos (by decide)]
  simp only [py_bind_ok, py_pure, mkBank, BANK_SIZE, List.map_replicate]

theorem init_rep : Rep (mkBank (List.replicate 2048 0) 0) 2048 (fun _ => 0) := by
  refine ⟨_, 0, rfl, List.length_replicate, ?_⟩
  intro x hx
  exact ⟨by rw [List.getElem?_replicate, if_pos hx], (by decide : Fits 48 0)⟩

theorem runs_rep (m : MemoryBank) (N : Nat) (mem : Int → Int) (ops : List MemOp)
    (h : Rep m N mem) : Rep (ops.foldl MemOp.run m) N (ops.foldl (memStep N) mem) := by
  induction ops generalizing m mem with
  | nil => exact h
  | cons op ops ih => exact ih _ _ (run_rep m N mem op h)

theorem rep_get {m : MemoryBank} {N : Nat} {mem : Int → Int} (h : Rep m N mem) (a : Int)
    (h0 : 0 ≤ a) (h1 : a < N) : m.get a = .ok (mem a) ∧ Fits 48 (mem a) := by
  obtain ⟨vs, c, rfl, hl, hx⟩ := h
  obtain ⟨n, rfl⟩ := Int.eq_ofNat_of_zero_le h0
  obtain ⟨h2, h3⟩ := hx n (by omega)
  refine ⟨?_, h3⟩
  rw [get_mk, dif_pos ⟨by omega, by simp; omega⟩]
  have hn : n < vs.length := by omega
  rw [List.getElem?_eq_getElem hn] at h2
  simp only [Int.toNat_natCast]
  injection h2 with h2
  rw [h2]


/-- A list of reads, one per address, all successful. -/
theorem getList_ok (vs : List Int) (c : Nat) (k : Nat) (s e : Int) (hk : (e - s).toNat = k)
    (hs : 0 ≤ s) (he : e ≤ vs.length) :
    (mkBank vs c).getList (pyRange s e) = .ok ((vs.drop s.toNat).take k) := by
  induction k generalizing s with
  | zero => rw [pyRange_cons, if_neg (by omega)]; rfl
  | succ k ih =>
    rw [pyRange_cons, if_pos (by omega)]
    unfold getList
    have hlt : s.toNat < vs.length := by omega
    rw [get_mk, dif_pos ⟨hs, hlt⟩, ih (s + 1) (by omega) (by omega)]
    simp only [py_bind_ok, py_pure]
    rw [List.drop_eq_getElem_cons hlt, List.take_succ_cons]
    have : (s + 1).toNat = s.toNat + 1 := by omega
    rw [this]

theorem getList_error (vs : List Int) (c : Nat) (k : Nat) (s e : Int) (hk : (e - s).toNat = k)
    (hse : s < e) (hbad : s < 0 ∨ vs.length < e) :
    (mkBank vs c).getList (pyRange s e) = .error .keyError := by
  induction k generalizing s with
  | zero => omega
  | succ k ih =>
    rw [pyRange_cons, if_pos hse]
    unfold getList
    rw [get_mk]
    by_cases hs : 0 ≤ s ∧ s.toNat < vs.length
    · rw [dif_pos hs, ih (s + 1) (by omega) (by omega) (by omega)]; rfl
    · rw [dif_neg hs]; rfl

theorem loop_spec (vs : List Int) (fuel c : Nat) (hf : vs.length < fuel + c)
    (hc : c ≤ vs.length) :
    loop fuel (mkBank vs c) = (mkBank vs vs.length, List.range' c (vs.length - c)) := by
  induction fuel generalizing c with
  | zero => omega
  | succ fuel ih =>
    unfold loop next
    by_cases h : c ≥ vs.length
    · have hcl : (mkBank vs c).current ≥ (mkBank vs c).len := by rw [len_mk]; exact h
      simp only [if_pos hcl]
      have : c = vs.length := by omega
      subst this
      simp
    · have hcl : ¬ (mkBank vs c).current ≥ (mkBank vs c).len := by rw [len_mk]; exact h
      simp only [if_neg hcl]
      have hmk : ({ words := (mkBank vs c).words, current := (mkBank vs c).current + 1 } : MemoryBank)
        = mkBank vs (c + 1) := rfl
      rw [hmk, ih (c + 1) (by omega) (by omega)]
      have : vs.length - c = (vs.length - (c + 1)) + 1 := by omega
      rw [this, List.range'_succ]; rfl

end MemoryBank

end H800
