import Verif.Props.EndToEnd
import Verif.Spec.LiveWords

/-!
Property C209: the words that a bank hands out.
-/

namespace H800

open Spec MemoryBank

/-- The field of a word with value `v`. -/
abbrev field48 (v : Int) : BitField := ⟨48, v, .msb1, .msbLeft⟩

theorem field48_run (v : Int) (ops : List BfOp) :
    bfRun (field48 v) ops = field48 (bfRun (field48 v) ops).value := by
  obtain ⟨h1, h2, h3⟩ := bfRun_shape ops (field48 v)
  generalize bfRun (field48 v) ops = b at *
  obtain ⟨w, x, n, o⟩ := b
  simp only at h1 h2 h3
  subst h1 h2 h3
  rfl

theorem field48_set (u v : Int) (hv : Fits 48 v) :
    bfRun (field48 u) [.setValue v] = field48 v := by
  have h := word_setValue u v
  rw [if_pos hv] at h
  unfold Word.setValue at h
  rw [if_neg ((fits48 v).1 hv)] at h
  have h2 := congrArg (fun p => p.1.data) h
  exact h2

theorem setList_none (vs : List Int) (c : Nat) (s e v : Int) (h : s < 0 ∨ ¬ Fits 48 v) :
    ((mkBank vs c).setList v (pyRange s e)).1 = mkBank vs c := by
  rw [pyRange_cons]
  split
  · unfold setList; rw [set_mk]
    by_cases hs : 0 ≤ s ∧ s.toNat < vs.length
    · rw [if_pos hs, if_neg (by rcases h with h | h; · omega
                                · exact h)]
    · rw [if_neg hs]
  · rfl

/-- What one operation does to the whole bank. -/
theorem liveWord_step (vs : List Int) (c : Nat) (hl : vs.length = 2048) (hc : c ≤ 2048) (op : LiveOp) :
    ∃ vs', op.run (mkBank vs c) = mkBank vs' (handedOut c op) ∧ vs'.length = 2048 ∧
      handedOut c op ≤ 2048 ∧ ∀ (x : Nat) (h : x < vs.length),
        vs'[x]? = some (bfRun (field48 vs[x]) (doneTo x c op)).value := by
  have keep : ∀ {vs' : List Int} (x : Nat) (h : x < vs.length), vs'[x]? = vs[x]? →
      vs'[x]? = some (bfRun (field48 vs[x]) []).value := by
    intro vs' x h e
    rw [e, List.getElem?_eq_getElem h]; rfl
  cases op with
  | bank op =>
    cases op with
    | write a v =>
      simp only [LiveOp.run, MemOp.run, set_mk, handedOut, doneTo]
      by_cases ha : 0 ≤ a ∧ a.toNat < vs.length
      · rw [if_pos ha]
        by_cases hv : Fits 48 v
        · rw [if_pos hv]
          refine ⟨vs.set a.toNat v, rfl, by simpa using hl, hc, ?_⟩
          intro x h
          by_cases hx : a = x
          · rw [if_pos ⟨hx, hv⟩, field48_set _ _ hv, List.getElem?_set, if_pos (by omega), if_pos (by omega)]
          · rw [if_neg (fun h => hx h.1)]
            exact keep x h (by rw [List.getElem?_set, if_neg (by omega)])
        · rw [if_neg hv]
          refine ⟨vs, rfl, hl, hc, ?_⟩
          intro x h
          rw [if_neg (fun h => hv h.2)]
          exact keep x h rfl
      · rw [if_neg ha]
        refine ⟨vs, rfl, hl, hc, ?_⟩
        intro x h
        rw [if_neg (by rintro ⟨h, -⟩; omega)]
        exact keep x h rfl
    | fill s e v =>
      cases s with
      | none => exact ⟨vs, rfl, hl, hc, fun x h => keep x h rfl⟩
      | some s =>
        cases e with
        | none => exact ⟨vs, rfl, hl, hc, fun x h => keep x h rfl⟩
        | some e =>
          simp only [LiveOp.run, MemOp.run, setSlice, BitField.needInt, handedOut, doneTo]
          by_cases hv : 0 ≤ s ∧ Fits 48 v
          · obtain ⟨vs', h1, h2, h3⟩ := setList_spec _ vs c s e v rfl hv.1 hv.2
            rw [h1]
            refine ⟨vs', rfl, by omega, hc, ?_⟩
            intro x h
            by_cases hr : s ≤ (x:Int) ∧ (x:Int) < e
            · rw [if_pos ⟨hv.1, hr.1, hr.2, hv.2⟩, field48_set _ _ hv.2, h3 x, if_pos ⟨hr, h⟩]
            · rw [if_neg (fun h => hr ⟨h.2.1, h.2.2.1⟩)]
              exact keep x h (by rw [h3 x, if_neg (fun h => hr h.1)])
          · rw [setList_none vs c s e v (by by_contra h; exact hv ⟨by omega, by
              by_contra h2; exact h (.inr h2)⟩)]
            refine ⟨vs, rfl, hl, hc, ?_⟩
            intro x h
            rw [if_neg (fun h => hv ⟨h.1, h.2.2.2⟩)]
            exact keep x h rfl
    | clear =>
      simp only [LiveOp.run, MemOp.run, clear_eq, handedOut, doneTo]
      have h0 : Fits 48 0 := by decide
      obtain ⟨vs', h1, h2, h3⟩ := setList_spec _ vs c 0 (mkBank vs c).len 0 rfl (le_refl _) h0
      rw [h1]
      refine ⟨vs', rfl, by omega, hc, ?_⟩
      intro x h
      rw [field48_set _ _ h0, h3 x, len_mk, if_pos (by omega)]
    | next =>
      simp only [LiveOp.run, MemOp.run, next, handedOut, doneTo]
      refine ⟨vs, ?_, hl, ?_, fun x h => keep x h rfl⟩
      · by_cases h : c < 2048
        · rw [if_pos h, if_neg (by rw [len_mk]; show ¬ c ≥ _; omega)]; rfl
        · rw [if_neg h, if_pos (by rw [len_mk]; show c ≥ _; omega)]
      · split <;> omega
    | forLoop =>
      simp only [LiveOp.run, MemOp.run, forLoop, handedOut, doneTo]
      refine ⟨vs, ?_, hl, le_refl _, fun x h => keep x h rfl⟩
      rw [loop_spec vs _ c (by rw [len_mk]; omega) (by omega), hl]
  | wordValue a v =>
    simp only [LiveOp.run, handedOut, doneTo]
    by_cases h : a < c
    · rw [if_pos (show a < (mkBank vs c).current from h)]
      by_cases hv : Fits 48 v
      · refine ⟨vs.set a v, ?_, by simpa using hl, hc, ?_⟩
        · simp only [mkBank]
          congr 1
          rw [List.map_set, List.modify_eq_set_getElem?]
          simp [show a < vs.length by omega, word_setValue, if_pos hv]
        · intro x hx
          by_cases hax : a = x
          · rw [if_pos ⟨hax, by omega, hv⟩, field48_set _ _ hv, List.getElem?_set, if_pos hax,
              if_pos (by omega)]
          · rw [if_neg (fun h => hax h.1)]
            exact keep x hx (by rw [List.getElem?_set, if_neg hax])
      · refine ⟨vs, ?_, hl, hc, ?_⟩
        · simp only [mkBank]
          congr 1
          rw [List.modify_eq_set_getElem?]
          simp [show a < vs.length by omega, word_setValue, if_neg hv]
          rw [← List.map_set, List.set_getElem_self]
        · intro x hx
          rw [if_neg (fun h => hv h.2.2)]
          exact keep x hx rfl
    · rw [if_neg (show ¬ a < (mkBank vs c).current from h)]
      refine ⟨vs, rfl, hl, hc, ?_⟩
      intro x hx
      rw [if_neg (by rintro ⟨h1, h2, -⟩; omega)]
      exact keep x hx rfl
  | wordData a op =>
    simp only [LiveOp.run, handedOut, doneTo]
    by_cases h : a < c
    · rw [if_pos (show a < (mkBank vs c).current from h)]
      have ha : a < vs.length := by omega
      refine ⟨vs.set a (bfRun (field48 vs[a]) [op]).value, ?_, by simpa using hl, hc, ?_⟩
      · simp only [mkBank]
        congr 1
        rw [List.map_set, List.modify_eq_set_getElem?]
        have : mkWord (bfRun (field48 vs[a]) [op]).value = ⟨(op.run (field48 vs[a])).1⟩ :=
          congrArg Word.mk (field48_run _ [op]).symm
        rw [this]
        simp [ha]; rfl
      · intro x hx
        by_cases hax : a = x
        · subst hax
          rw [if_pos ⟨rfl, h⟩, List.getElem?_set, if_pos rfl, if_pos ha]
        · rw [if_neg (fun h => hax h.1)]
          exact keep x hx (by rw [List.getElem?_set, if_neg hax])
    · rw [if_neg (show ¬ a < (mkBank vs c).current from h)]
      refine ⟨vs, rfl, hl, hc, ?_⟩
      intro x hx
      rw [if_neg (by rintro ⟨h1, h2⟩; omega)]
      exact keep x hx rfl

theorem liveWord_steps (ops : List LiveOp) : ∀ (vs : List Int) (c : Nat), vs.length = 2048 → c ≤ 2048 →
    ∃ vs', ops.foldl LiveOp.run (mkBank vs c) = mkBank vs' (ops.foldl handedOut c) ∧
      vs'.length = 2048 ∧ ops.foldl handedOut c ≤ 2048 ∧ ∀ (x : Nat) (h : x < vs.length),
        vs'[x]? = some (bfRun (field48 vs[x]) (lifeOf x c ops)).value := by
  induction ops with
  | nil => intro vs c hl hc; exact ⟨vs, rfl, hl, hc, fun x h => by rw [List.getElem?_eq_getElem h]; rfl⟩
  | cons op ops ih =>
    intro vs c hl hc
    obtain ⟨vs1, h1, h2, h3, h4⟩ := liveWord_step vs c hl hc op
    obtain ⟨vs2, g1, g2, g3, g4⟩ := ih vs1 _ h2 h3
    refine ⟨vs2, by rw [List.foldl_cons, h1, g1]; rfl, g2, g3, ?_⟩
    intro x h
    have hx1 : x < vs1.length := by omega
    have e1 := h4 x h
    rw [List.getElem?_eq_getElem hx1] at e1
    injection e1 with e1
    rw [g4 x hx1, e1, ← field48_run]
    simp only [lifeOf, bfRun, List.foldl_append]

theorem liveWord_at (ops : List LiveOp) (a : Nat) (ha : a < 2048) :
    (ops.foldl LiveOp.run (mkBank (List.replicate 2048 0) 0)).word a =
      .ok ⟨bfRun (field48 0) (lifeOf a 0 ops)⟩ := by
  obtain ⟨vs, h1, h2, h3, h4⟩ := liveWord_steps ops (List.replicate 2048 0) 0 List.length_replicate (by omega)
  have e := h4 a (by rw [List.length_replicate]; exact ha)
  rw [List.getElem_replicate, List.getElem?_eq_getElem (by omega)] at e
  injection e with e
  rw [h1, word_mk, dif_pos ⟨by omega, by simpa using (by omega : a < vs.length)⟩]
  simp only [Int.toNat_natCast]
  rw [e, mkWord, field48_run]

/-- C209: whatever is done with a bank and with the words taken from it, a word of the bank is the
48-bit field that a single word would be to which the same was done: the values assigned to it through
the bank and through the word, and the operations on its bits, in the order in which they were done.
What is done to other words makes no difference. -/
theorem C209_words : ∃ m0 b0, MemoryBank.init = .ok m0 ∧ BitField.init 0 48 3 0 = .ok b0 ∧
    ∀ (ops : List LiveOp) (a : Nat), a < 2048 → ∃ w, (ops.foldl LiveOp.run m0).word a = .ok w ∧
      w.data = bfRun b0 (lifeOf a 0 ops) ∧
      (ops.foldl LiveOp.run m0).get a = .ok (bfRun b0 (lifeOf a 0 ops)).value := by
  refine ⟨_, field48 0, init_eq, by decide, ?_⟩
  intro ops a ha
  refine ⟨_, liveWord_at ops a ha, rfl, ?_⟩
  unfold MemoryBank.get
  rw [liveWord_at ops a ha]
  rfl

/-- C209, bit by bit: if what is written to the bits of words fits, bit `i` of a word in the bank, from 1
for the leftmost, is the bit that an array of bits holds after what was done to the word. -/
theorem C209_bits : ∃ m0, MemoryBank.init = .ok m0 ∧ ∀ (ops : List LiveOp) (a : Nat), a < 2048 →
    (∀ op, .wordData a op ∈ ops → OpFits 3 48 op) → ∀ i : Int, 1 ≤ i → i ≤ 48 →
    ∃ w, (ops.foldl LiveOp.run m0).word a = .ok w ∧
      w.data.getitem (.idx i) = .ok (BitArray.run 3 48 0 (lifeOf a 0 ops) (48 - i).toNat) := by
  refine ⟨_, init_eq, ?_⟩
  intro ops a ha hops i hi hi'
  refine ⟨_, liveWord_at ops a ha, ?_⟩
  have hfits : ∀ (ops : List LiveOp) (n : Nat), (∀ op, .wordData a op ∈ ops → OpFits 3 48 op) →
      ∀ op ∈ lifeOf a n ops, OpFits 3 48 op := by
    intro ops
    induction ops with
    | nil => intro n _ op h; cases h
    | cons o ops ih =>
      intro n hops op h
      rw [lifeOf, List.mem_append] at h
      rcases h with h | h
      · cases o with
        | bank o =>
          cases o with
          | write x v =>
            simp only [doneTo] at h
            split at h
            · rename_i hc
              rw [List.mem_singleton] at h; subst h; exact hc.2
            · cases h
          | fill s e v =>
            cases s with
            | none => cases h
            | some s => cases e with
              | none => cases h
              | some e =>
                simp only [doneTo] at h
                split at h
                · rename_i hc
                  rw [List.mem_singleton] at h; subst h; exact hc.2.2.2
                · cases h
          | clear =>
            simp only [doneTo, List.mem_singleton] at h
            subst h
            exact (by decide : Fits 48 0)
          | next => cases h
          | forLoop => cases h
        | wordValue x v =>
          simp only [doneTo] at h
          split at h
          · rename_i hc
            rw [List.mem_singleton] at h; subst h; exact hc.2.2
          · cases h
        | wordData x o =>
          simp only [doneTo] at h
          split at h
          · rename_i hc
            rw [List.mem_singleton] at h; subst h
            exact hops op (by rw [← hc.1]; exact List.mem_cons_self)
          · cases h
      · exact ih _ (fun op ho => hops op (List.mem_cons_of_mem _ ho)) op h
  have h48 : weightExp 3 48 i = 48 - i := by simp [weightExp]
  have h := C101_bit_array 0 48 3 (field48 0) (lifeOf a 0 ops) (by decide) (le_refl _)
    (hfits ops 0 hops) i (by show 0 ≤ weightExp 3 48 i ∧ weightExp 3 48 i < 48; omega)
  rw [show (field48 0).numbering.code = 3 from rfl,
    show weightExp 3 ((48 : Nat) : Int) i = 48 - i from h48] at h
  exact h

/-- C209, the words handed out: all through the history the bank hands out the words from address 0 on, one
after the other, each once, however many loops ask for them. -/
theorem C209_once : ∃ m0, MemoryBank.init = .ok m0 ∧ ∀ ops : List LiveOp,
    let m := ops.foldl LiveOp.run m0
    let n := ops.foldl handedOut 0
    m.next.2 = (if n < 2048 then some n else none) ∧
    m.forLoop.2 = List.range' n (2048 - n) := by
  refine ⟨_, init_eq, ?_⟩
  intro ops
  obtain ⟨vs, h1, h2, h3, h4⟩ := liveWord_steps ops (List.replicate 2048 0) 0 List.length_replicate (by omega)
  simp only [h1]
  generalize ops.foldl handedOut 0 = n at *
  constructor
  · unfold MemoryBank.next
    rw [len_mk, h2]
    by_cases h : n < 2048
    · rw [if_pos h, if_neg (show ¬ (mkBank vs n).current ≥ 2048 from by show ¬ n ≥ 2048; omega)]; rfl
    · rw [if_neg h, if_pos (show (mkBank vs n).current ≥ 2048 from by show n ≥ 2048; omega)]
  · unfold forLoop
    rw [loop_spec vs _ n (by rw [len_mk]; omega) (by omega), h2]

/-- C209, a loop within a loop over the same bank: the inner one takes all the words that are left, so
that the outer one ends after its first round. -/
theorem C209_nested : ∃ m0, MemoryBank.init = .ok m0 ∧ ∀ ops : List LiveOp,
    let m := ops.foldl LiveOp.run m0
    let n := ops.foldl handedOut 0
    n < 2048 → m.next.2 = some n ∧ m.next.1.forLoop.2 = List.range' (n + 1) (2047 - n) ∧
      m.next.1.forLoop.1.next.2 = none := by
  obtain ⟨m0, h0, h⟩ := C209_once
  refine ⟨m0, h0, ?_⟩
  intro ops m n hn
  have hs : (ops ++ [LiveOp.bank .next]).foldl handedOut 0 = n + 1 := by
    rw [List.foldl_append]; exact if_pos hn
  have hr : (ops ++ [LiveOp.bank .next]).foldl LiveOp.run m0 = m.next.1 := by
    rw [List.foldl_append]; rfl
  have hr2 : (ops ++ [LiveOp.bank .next, .bank .forLoop]).foldl LiveOp.run m0 = m.next.1.forLoop.1 := by
    rw [List.foldl_append]; rfl
  refine ⟨by rw [(h ops).1, if_pos hn], ?_, ?_⟩
  · have := (h (ops ++ [LiveOp.bank .next])).2
    rw [hs, hr] at this
    rw [this]
    congr 1
    omega
  · have := (h (ops ++ [LiveOp.bank .next, .bank .forLoop])).1
    rw [hr2, show (ops ++ [LiveOp.bank .next, .bank .forLoop]).foldl handedOut 0 = 2048 by
      rw [List.foldl_append]; rfl] at this
    exact this

/-- C209, an example: a bit of word 1 is set through the word itself; word 2 has not been handed out. -/
example : let ops := [LiveOp.bank .next, .bank .next, .wordValue 0 7, .bank (.write 1 8),
      .wordData 1 (.setitem (.idx 48) 1), .wordValue 2 5]
    lifeOf 1 0 ops = [.setValue 8, .setitem (.idx 48) 1] ∧ lifeOf 2 0 ops = [] ∧
    ops.foldl handedOut 0 = 2 ∧ (∀ op, .wordData 1 op ∈ ops → OpFits 3 48 op) ∧
    (bfRun ⟨48, 0, .msb1, .msbLeft⟩ (lifeOf 1 0 ops)).value = 9 := by
  refine ⟨by decide, by decide, by decide, ?_, by decide⟩
  intro op h
  simp at h
  subst h
  exact (by decide : Fits 1 1)

end H800
