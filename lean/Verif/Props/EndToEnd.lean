import Verif.Props.Word
import Verif.Props.Memory
import Verif.Props.Instruction
import Verif.Props.BitFieldMore
import Verif.Spec.EndToEnd

/-!
Properties C124 and C125: instructions, words and memory used together; the order of writes.
-/

namespace H800

open Spec

/-! ### Instructions in memory -/

theorem memStep_misses {a : Int} {op : MemOp} (h : Misses a op) (mem : Int → Int) :
    memStep 2048 mem op a = mem a := by
  cases op with
  | write x v =>
    simp only [memStep]
    rw [if_neg]
    rintro ⟨rfl, -⟩
    exact h rfl
  | fill s e v =>
    cases s with
    | none => rfl
    | some s =>
      cases e with
      | none => rfl
      | some e =>
        simp only [memStep]
        rw [if_neg]
        rintro ⟨h1, -⟩
        exact h h1
  | clear => exact h.elim
  | next => rfl
  | forLoop => rfl

theorem memStep_misses_all {a : Int} (ops : List MemOp) :
    (∀ op ∈ ops, Misses a op) → ∀ mem, ops.foldl (memStep 2048) mem a = mem a := by
  induction ops with
  | nil => intro _ mem; rfl
  | cons op ops ih =>
    intro h mem
    rw [List.foldl_cons, ih (fun o ho => h o (List.mem_cons_of_mem _ ho)),
      memStep_misses (h op List.mem_cons_self)]

/-- C124, the memory alone: a word written after any history is read back after any operations that
miss it. -/
theorem C124_stays (m0 : MemoryBank) (h0 : MemoryBank.init = .ok m0) (before after : List MemOp)
    (adr v : Int) (ha : 0 ≤ adr ∧ adr < 2048) (hv : Fits 48 v)
    (hmiss : ∀ op ∈ after, Misses adr op) :
    ((before ++ .write adr v :: after).foldl MemOp.run m0).get adr = .ok v := by
  obtain ⟨m0', h0', hall⟩ := C29_last_write
  rw [h0] at h0'
  cases h0'
  rw [(hall (before ++ .write adr v :: after) adr ha.1 ha.2).1, List.foldl_append, List.foldl_cons,
    memStep_misses_all after hmiss]
  exact congrArg Except.ok (if_pos ⟨rfl, ha, hv⟩)

theorem construct_fits {cls : Str} {x : Args} {i : Instruction} (h : construct cls x = .ok i) :
    Fits 12 i.value := by
  unfold construct at h
  split at h
  · cases h
  · rename_i m sig _
    split at h
    · cases h
    · cases ho : dgetE OPCODES m with
      | error e => rw [ho] at h; cases h
      | ok o =>
        rw [ho] at h
        cases sig <;> exact (C40_fits _ _ _ _ _ _ _ i h).1

/-- C124: any instruction the module can build, put into an instruction word with any three
addresses and stored at any address of a bank after any history, is read back, after any operations
that miss the address, as a word that splits into the same command and addresses. -/
theorem C124_stored_instruction (cls : Str) (x : Args) (i : Instruction)
    (hi : construct cls x = .ok i) (a b c adr : Int) (ha : Fits 12 a) (hb : Fits 12 b)
    (hc : Fits 12 c) (hadr : 0 ≤ adr ∧ adr < 2048) (m0 : MemoryBank)
    (h0 : MemoryBank.init = .ok m0) (before after : List MemOp)
    (hmiss : ∀ op ∈ after, Misses adr op) :
    ∃ w, InstructionWord.init i.value a b c = .ok w ∧
      ∃ v u, ((before ++ .write adr w.value :: after).foldl MemOp.run m0).get adr = .ok v ∧
        Word.init v = .ok u ∧
        InstructionWord.get u .command = .ok i.value ∧ InstructionWord.get u .a = .ok a ∧
        InstructionWord.get u .b = .ok b ∧ InstructionWord.get u .c = .ok c := by
  have hf := construct_fits hi
  obtain ⟨w, hw, hisw, hval, h1, h2, h3, h4⟩ := C16_instructionWord_packs i.value a b c hf ha hb hc
  have hw48 : Fits 48 w.value := by
    rw [hval]
    unfold Fits at *
    omega
  obtain ⟨u, hu, hisu, huv⟩ := C15_word_value.1 w.value hw48
  have hwu : u = w := by rw [isWord_eq hisw, isWord_eq hisu, huv]
  subst hwu
  exact ⟨u, hw, u.value, u, C124_stays m0 h0 before after adr _ hadr hw48 hmiss, hu, h1, h2, h3, h4⟩

/-- C124, an example: a masked BinaryAdd with addresses 1, 2 and 3, stored at 100. -/
example : (∃ i, construct (py "BinaryAdd") { sequence := some 1, mask := some 21 } = .ok i ∧
      i.value = 0o6551) ∧
    (∀ op ∈ [MemOp.write 99 5, .fill (some 101) (some 3000) 7, .forLoop, .fill (some 0) none 1],
      Misses 100 op) ∧ ¬ Misses 100 (.fill (some 90) (some 101) 0) := by
  refine ⟨?_, by decide, by decide⟩
  have : (match construct (py "BinaryAdd") { sequence := some 1, mask := some 21 } with
      | .ok i => decide (i.value = 0o6551)
      | .error _ => false) = true := by decide +kernel
  split at this
  · rename_i i h; exact ⟨i, h, of_decide_eq_true this⟩
  · cases this

/-! ### Writes to different bits -/

theorem bits_determine {W : Nat} {v v' : Int} (hv : Fits W v) (hv' : Fits W v')
    (h : ∀ k, k < W → bitOf v k = bitOf v' k) : v = v' := by
  rw [← bits_sum W v hv, ← bits_sum W v' hv']
  congr 1
  apply List.map_congr_left
  intro k hk
  rw [h k (List.mem_range.1 hk)]

theorem bfRun_shape (ops : List BfOp) : ∀ b : BitField,
    (bfRun b ops).width = b.width ∧ (bfRun b ops).numbering = b.numbering ∧
      (bfRun b ops).order = b.order := by
  induction ops with
  | nil => intro b; exact ⟨rfl, rfl, rfl⟩
  | cons op ops ih =>
    intro b
    obtain ⟨-, h1, h2, h3⟩ := C12_failure_atomic b op
    obtain ⟨h4, h5, h6⟩ := ih (op.run b).1
    exact ⟨h4.trans h1, h5.trans h2, h6.trans h3⟩

theorem bfRun_fits (ops : List BfOp) : ∀ b : BitField, Fits b.width b.value →
    (∀ op ∈ ops, OpFits b.numbering.code b.width op) → Fits b.width (bfRun b ops).value := by
  induction ops with
  | nil => intro b hb _; exact hb
  | cons op ops ih =>
    intro b hb h
    obtain ⟨-, h1, h2, h3⟩ := C12_failure_atomic b op
    have := ih (op.run b).1 (by rw [h1]; exact fits_step b op hb (h op List.mem_cons_self))
      (fun o ho => by rw [h1, h2]; exact h o (List.mem_cons_of_mem _ ho))
    rw [h1] at this
    exact this

theorem bfRun_eq (b : BitField) (ops ops' : List BfOp) (ho : b.order = .msbLeft)
    (hb : Fits b.width b.value) (h : ∀ op ∈ ops, OpFits b.numbering.code b.width op)
    (h' : ∀ op ∈ ops', OpFits b.numbering.code b.width op)
    (heq : ∀ a : BitArray, ∀ k, k < b.width →
      ops.foldl (BitArray.step b.numbering.code b.width) a k =
        ops'.foldl (BitArray.step b.numbering.code b.width) a k) :
    bfRun b ops = bfRun b ops' := by
  obtain ⟨h1, h2, h3⟩ := bfRun_shape ops b
  obtain ⟨h1', h2', h3'⟩ := bfRun_shape ops' b
  have hv : (bfRun b ops).value = (bfRun b ops').value := by
    apply bits_determine (bfRun_fits ops b hb h) (bfRun_fits ops' b hb h')
    intro k hk
    rw [bfRun_refines ops b (fun k => bitOf b.value k) ho hb h (fun _ _ => rfl) k hk,
      bfRun_refines ops' b (fun k => bitOf b.value k) ho hb h' (fun _ _ => rfl) k hk, heq _ k hk]
  revert h1 h2 h3 h1' h2' h3' hv
  cases bfRun b ops
  cases bfRun b ops'
  simp only
  rintro rfl rfl rfl rfl rfl rfl rfl
  rfl

theorem step_untouched {scheme W : Nat} {op : BfOp} {k : Nat} (h : ¬ Touched scheme W op k)
    (a : BitArray) : BitArray.step scheme W a op k = a k := by
  have hr : ∀ (s e x : Int), ¬ (weightExp scheme W e ≤ k ∧ (k : Int) ≤ weightExp scheme W s) →
      BitArray.writeRange a scheme W s e x k = a k := by
    intro s e x hn
    unfold BitArray.writeRange
    split
    · rename_i hc
      unfold BitArray.write
      rw [if_neg]
      omega
    · rfl
  have hf : ∀ (x : Int) (i : Option Int), ¬ TouchedOpt scheme W i k →
      BitArray.fill a scheme W x i k = a k := by
    intro x i hn
    cases i with
    | none => exact absurd trivial hn
    | some i =>
      unfold TouchedOpt at hn
      unfold BitArray.fill
      simp only
      rw [if_neg (fun h => hn (Or.inl h))]
      exact hr i i x (by omega)
  cases op with
  | setitem key x =>
    cases key with
    | idx i => exact hr i i x (by unfold Touched at h; omega)
    | slice s e =>
      cases s with
      | none => rfl
      | some s =>
        cases e with
        | none => rfl
        | some e => exact hr s e x h
  | setValue x => exact absurd trivial h
  | set i => exact hf 1 i h
  | clear i => exact hf 0 i h

theorem step_comm {scheme W : Nat} {op op' : BfOp}
    (h : ∀ k, ¬ (Touched scheme W op k ∧ Touched scheme W op' k)) (a : BitArray) :
    BitArray.step scheme W (BitArray.step scheme W a op) op' =
      BitArray.step scheme W (BitArray.step scheme W a op') op := by
  funext k
  by_cases h1 : Touched scheme W op k
  · have h2 : ¬ Touched scheme W op' k := fun h2 => h k ⟨h1, h2⟩
    rw [step_untouched h2]
    exact bitArray_step_congr _ _ _ _ _ _ (step_untouched h2 a).symm
  · rw [step_untouched h1]
    exact bitArray_step_congr _ _ _ _ _ _ (step_untouched h1 a)

/-- C125: operations on an MSB-left field that touch different bits can be done in any order. -/
theorem C125_any_order (b : BitField) (ops ops' : List BfOp) (ho : b.order = .msbLeft)
    (hb : Fits b.width b.value) (h : ∀ op ∈ ops, OpFits b.numbering.code b.width op)
    (hd : ops.Pairwise fun op op' => ∀ k,
      ¬ (Touched b.numbering.code b.width op k ∧ Touched b.numbering.code b.width op' k))
    (hp : ops.Perm ops') : bfRun b ops = bfRun b ops' := by
  apply bfRun_eq b ops ops' ho hb h (fun op hop => h op (hp.mem_iff.2 hop))
  intro a k _
  refine congrFun (hp.foldl_eq' ?_ a) k
  intro x hx y hy z
  by_cases hxy : x = y
  · rw [hxy]
  · refine step_comm ?_ z
    obtain ⟨i, hi, rfl⟩ := List.mem_iff_getElem.1 hx
    obtain ⟨j, hj, rfl⟩ := List.mem_iff_getElem.1 hy
    rw [List.pairwise_iff_getElem] at hd
    rcases Nat.lt_trichotomy i j with hij | rfl | hij
    · exact hd i j hi hj hij
    · exact absurd rfl hxy
    · exact fun k hk => hd j i hj hi hij k hk.symm

/-- C125, the same bits: of two writes to the same subscript only the last one counts. -/
theorem C125_last_counts (b : BitField) (key : Key) (x x' : Int) (ho : b.order = .msbLeft)
    (hb : Fits b.width b.value) (h : OpFits b.numbering.code b.width (.setitem key x))
    (h' : OpFits b.numbering.code b.width (.setitem key x')) :
    bfRun b [.setitem key x, .setitem key x'] = bfRun b [.setitem key x'] := by
  have hr : ∀ (a : BitArray) (s e : Int),
      (BitArray.writeRange a b.numbering.code b.width s e x).writeRange
        b.numbering.code b.width s e x' = a.writeRange b.numbering.code b.width s e x' := by
    intro a s e
    unfold BitArray.writeRange
    split
    · funext k
      unfold BitArray.write
      split <;> rfl
    · rfl
  refine bfRun_eq b _ _ ho hb (by simpa using ⟨h, h'⟩) (by simpa using h') ?_
  intro a k _
  simp only [List.foldl_cons, List.foldl_nil]
  cases key with
  | idx i => exact congrFun (hr a i i) k
  | slice s e =>
    cases s with
    | none => rfl
    | some s =>
      cases e with
      | none => rfl
      | some e => exact congrFun (hr a s e) k

/-- C125, an example: two slices and a bit of a 12-bit command code. -/
example : let ops : List BfOp := [.setitem (.slice (some 2) (some 6)) 0b11011,
      .setitem (.idx 1) 1, .setitem (.slice (some 8) (some 12)) 9]
    (∀ op ∈ ops, OpFits 3 12 op) ∧
    (ops.Pairwise fun op op' => ∀ k, ¬ (Touched 3 12 op k ∧ Touched 3 12 op' k)) ∧
    bfRun ⟨12, 0, .msb1, .msbLeft⟩ ops = ⟨12, 0b111011001001, .msb1, .msbLeft⟩ := by
  refine ⟨?_, ?_, by decide⟩
  · intro op hop
    simp only [List.mem_cons, List.not_mem_nil, or_false] at hop
    rcases hop with rfl | rfl | rfl <;> simp only [OpFits] <;> decide
  simp only [List.pairwise_cons, List.mem_cons, List.not_mem_nil, or_false, forall_eq_or_imp,
    forall_eq, false_imp_iff, implies_true, List.Pairwise.nil, and_true, Touched, weightExp]
  refine ⟨⟨?_, ?_⟩, ?_⟩ <;> · intro k; omega

end H800
