import Verif.Spec.Calls
import Verif.Props.Instruction
import Verif.Lemmas.Dict
import Verif.Lemmas.Repr
import Mathlib.Data.List.Nodup

/-!
C176 - C178: calls of the classes of machine instructions, and the line they print.
-/

namespace H800

open Spec

section binding
variable {params : List (Str × Bool)} {call : CallArgs}

theorem zip_keys_sublist {α β : Type} (l : List α) (l' : List β) :
    ((l.zip l').map (·.1)).Sublist l := by
  induction l generalizing l' with
  | nil => simp
  | cons x l ih =>
    cases l' with
    | nil => simp
    | cons y l' => simpa using ih l'

theorem mem_zip_iff {α β : Type} (l : List α) (l' : List β) (a : α) (b : β) :
    (a, b) ∈ l.zip l' ↔ ∃ i : Nat, l[i]? = some a ∧ l'[i]? = some b := by
  rw [List.mem_iff_getElem?]
  simp only [List.getElem?_zip_eq_some]

theorem nodup_index {α : Type} {l : List α} (hn : l.Nodup) {i j : Nat} {a : α} (hi : l[i]? = some a)
    (hj : l[j]? = some a) : i = j := by
  obtain ⟨h1, h2⟩ := List.getElem?_eq_some_iff.1 hi
  obtain ⟨h3, h4⟩ := List.getElem?_eq_some_iff.1 hj
  exact (hn.getElem_inj_iff).1 (h2.trans h4.symm)

theorem params_name {i : Nat} {k : Str} {d : Bool} (h : params[i]? = some (k, d)) :
    (params.map (·.1))[i]? = some k := by
  rw [List.getElem?_map, h]; rfl

theorem params_of_name {i : Nat} {k : Str} (h : (params.map (·.1))[i]? = some k) :
    ∃ d, params[i]? = some (k, d) := by
  rw [List.getElem?_map] at h
  cases hp : params[i]? with
  | none => rw [hp] at h; cases h
  | some x =>
    rw [hp] at h
    obtain ⟨k', d⟩ := x
    cases h
    exact ⟨d, rfl⟩

/-- The value of a parameter that is given by position. -/
theorem argValue_pos (hn : (params.map (·.1)).Nodup) {i : Nat} {k : Str} {v : Option Int} {d : Bool}
    (hv : call.pos[i]? = some v) (hp : params[i]? = some (k, d)) : argValue params call k = v := by
  have hz : dget ((params.map (·.1)).zip call.pos) k = some v :=
    dget_of_mem (hn.sublist (zip_keys_sublist _ _)) ((mem_zip_iff _ _ _ _).2 ⟨i, params_name hp, hv⟩)
  rw [argValue, hz]

/-- The value of a parameter that is not given by position. -/
theorem argValue_rest (hn : (params.map (·.1)).Nodup) {i : Nat} {k : Str} {d : Bool}
    (hi : call.pos.length ≤ i) (hp : params[i]? = some (k, d)) :
    argValue params call k = (dget call.kws k).getD none := by
  have hz : dget ((params.map (·.1)).zip call.pos) k = none := by
    cases h : dget ((params.map (·.1)).zip call.pos) k with
    | none => rfl
    | some v =>
      obtain ⟨j, h1, h2⟩ := (mem_zip_iff _ _ _ _).1 (dget_mem h)
      have := nodup_index hn h1 (params_name hp)
      obtain ⟨h3, _⟩ := List.getElem?_eq_some_iff.1 h2
      omega
  rw [argValue, hz]
  cases dget call.kws k <;> rfl

/-- The values that the model gives to the parameters are those Python gives them. -/
theorem passes_argValue (hn : (params.map (·.1)).Nodup) {value : Str → Option Int}
    (h : Passes params call value) {k : Str} (hk : k ∈ params.map (·.1)) :
    argValue params call k = value k := by
  obtain ⟨i, hi⟩ := List.mem_iff_getElem?.1 hk
  obtain ⟨d, hp⟩ := params_of_name hi
  by_cases hlt : i < call.pos.length
  · have hv : call.pos[i]? = some call.pos[i] := List.getElem?_eq_getElem hlt
    rw [argValue_pos hn hv hp]
    exact (h.first i _ k d hv hp).symm
  · have hle : call.pos.length ≤ i := by omega
    rw [argValue_rest hn hle hp]
    cases hd : dget call.kws k with
    | some v => exact (h.keyword k v (dget_mem hd)).symm
    | none => exact ((h.default i k d hle hp (dget_none.1 hd)).2).symm

theorem bindCall_error (h : bindCall params call.pos.length (call.kws.map (·.1)) ≠ .ok ()) :
    bindCall params call.pos.length (call.kws.map (·.1)) = .error .typeError := by
  unfold bindCall at h ⊢
  split
  · rfl
  · split
    · rfl
    · split
      · rename_i h1 h2 h3
        rw [if_neg h1, if_neg h2, if_pos h3] at h
        exact absurd rfl h
      · rfl

/-- A call is accepted exactly if its arguments can be passed. -/
theorem bindCall_ok (hn : (params.map (·.1)).Nodup) (hk : (call.kws.map (·.1)).Nodup) :
    bindCall params call.pos.length (call.kws.map (·.1)) = .ok () ↔
      ∃ value, Passes params call value := by
  have hmem : ∀ x, x ∈ params.drop call.pos.length ↔
      ∃ i, call.pos.length ≤ i ∧ params[i]? = some x := by
    intro x
    rw [List.mem_iff_getElem?]
    simp only [List.getElem?_drop]
    constructor
    · rintro ⟨i, hi⟩
      exact ⟨_, Nat.le_add_right _ _, hi⟩
    · rintro ⟨i, hi, hx⟩
      exact ⟨i - call.pos.length, by rw [Nat.add_sub_cancel' hi]; exact hx⟩
  constructor
  · intro h
    unfold bindCall at h
    split at h
    · cases h
    rename_i h1
    split at h
    · cases h
    rename_i h2
    split at h
    case isFalse => cases h
    rename_i h3
    simp only [Decidable.not_not, List.all_eq_true, List.any_eq_true, decide_eq_true_eq] at h2
    simp only [List.all_eq_true, Bool.or_eq_true, List.contains_iff_mem] at h3
    have hnamed : ∀ k ∈ call.kws.map (·.1), ∃ (i : Nat) (d : Bool), call.pos.length ≤ i ∧
        params[i]? = some (k, d) := by
      intro k hk
      obtain ⟨⟨k', d⟩, hm, rfl⟩ := h2 k hk
      obtain ⟨i, hi, hp⟩ := (hmem _).1 hm
      exact ⟨i, d, hi, hp⟩
    refine ⟨argValue params call, by omega, hnamed, ?_, ?_, ?_⟩
    · intro i v k d hv hp
      exact argValue_pos hn hv hp
    · intro k v hv
      obtain ⟨i, d, hi, hp⟩ := hnamed k (List.mem_map.2 ⟨_, hv, rfl⟩)
      rw [argValue_rest hn hi hp, dget_of_mem hk hv]
      rfl
    · intro i k d hi hp hnot
      refine ⟨?_, ?_⟩
      · rcases h3 (k, d) ((hmem _).2 ⟨i, hi, hp⟩) with h | h
        · exact h
        · exact absurd h hnot
      · rw [argValue_rest hn hi hp, dget_none.2 hnot]
        rfl
  · rintro ⟨value, h⟩
    unfold bindCall
    rw [if_neg (by have := h.few; omega), if_neg, if_pos]
    · simp only [List.all_eq_true, Bool.or_eq_true, List.contains_iff_mem]
      rintro ⟨k, d⟩ hm
      obtain ⟨i, hi, hp⟩ := (hmem _).1 hm
      by_cases hin : k ∈ call.kws.map (·.1)
      · exact Or.inr hin
      · exact Or.inl (h.default i k d hi hp hin).1
    · simp only [Decidable.not_not, List.all_eq_true, List.any_eq_true, decide_eq_true_eq]
      intro k hk
      obtain ⟨i, d, hi, hp⟩ := h.named k hk
      exact ⟨(k, d), (hmem _).2 ⟨i, hi, hp⟩, rfl⟩

end binding

theorem classParams_names (cls : Str) (sig : Sig) :
    (classParams cls sig).map (·.1) = operandNames sig := by
  cases sig <;> rfl

theorem classParams_nodup (cls : Str) (sig : Sig) : ((classParams cls sig).map (·.1)).Nodup := by
  rw [classParams_names]
  cases sig <;> decide

/-- Every class names a row of the opcode table. -/
theorem classes_opcode {cls m : Str} {sig : Sig} (hc : dget CLASSES cls = some (m, sig)) :
    ∃ o, dget OPCODES m = some o := by
  have h : ∀ p ∈ CLASSES, (dget OPCODES p.2.1).isSome = true := by decide +kernel
  exact Option.isSome_iff_exists.1 (h _ (dget_mem hc))

section
variable (printable : Char → Bool) {cls m : Str} {sig : Sig} {call : CallArgs} {value : Str → Option Int}

theorem callClass_eq (hc : dget CLASSES cls = some (m, sig)) (hk : (call.kws.map (·.1)).Nodup)
    (hp : Passes (classParams cls sig) call value) (x : Args)
    (hx : ∀ k, operand x k = if k ∈ operandNames sig then value k else none) :
    ∃ o, dget OPCODES m = some o ∧
      callClass printable cls call =
        ([Instruction.line printable o (sig.operands x).sequence (sig.operands x).mask
          (sig.operands x).a (sig.operands x).b (sig.operands x).c (sig.operands x).paddr],
          construct cls x) := by
  obtain ⟨o, ho⟩ := classes_opcode hc
  refine ⟨o, ho, ?_⟩
  have hb := (bindCall_ok (classParams_nodup cls sig) hk).2 ⟨value, hp⟩
  have hv : ∀ k ∈ operandNames sig, argValue (classParams cls sig) call k = operand x k := by
    intro k hk'
    rw [hx, if_pos hk']
    exact passes_argValue (classParams_nodup cls sig) hp (by rw [classParams_names]; exact hk')
  have hoE : dgetE OPCODES m = .ok o := by rw [dgetE, ho]
  rw [callClass, hc]
  simp only
  rw [hb]
  simp only
  rw [hoE]
  simp only
  rw [construct, hc]
  simp only
  have e1 : operand x (py "sequence") = x.sequence := rfl
  have e2 : operand x (py "mask") = x.mask := rfl
  have e3 : operand x (py "a") = x.a := rfl
  have e4 : operand x (py "b") = x.b := rfl
  have e5 : operand x (py "c") = x.c := rfl
  have e6 : operand x (py "paddr") = x.paddr := rfl
  have g1 := hx (py "sequence")
  have g2 := hx (py "mask")
  have g3 := hx (py "a")
  have g4 := hx (py "b")
  have g5 := hx (py "c")
  have g6 := hx (py "paddr")
  rw [e1] at g1
  rw [e2] at g2
  rw [e3] at g3
  rw [e4] at g4
  rw [e5] at g5
  rw [e6] at g6
  have hval : sig.operands (callValues (classParams cls sig) call) = sig.operands x := by
    cases sig <;> simp only [Sig.operands, callValues]
    · rw [hv _ (by decide), hv _ (by decide), hv _ (by decide), hv _ (by decide), hv _ (by decide),
        e1, e2, e3, e4, e5]
    · rw [hv _ (by decide), hv _ (by decide), hv _ (by decide), hv _ (by decide), e1, e3, e4, e5]
    · rw [hv _ (by decide), hv _ (by decide), hv _ (by decide), hv _ (by decide), e1, e3, e4, e5]
    · rw [hv _ (by decide), e6]
    · rw [hv _ (by decide), e1]
  rw [hval]
  have hacc : sig.accepts x = true := by
    obtain ⟨x1, x2, x3, x4, x5, x6⟩ := x
    simp only at g1 g2 g3 g4 g5 g6
    cases sig
    · rw [if_neg (by decide)] at g6
      simp [Sig.accepts, g6]
    · rw [if_neg (by decide)] at g2 g6
      simp [Sig.accepts, g2, g6]
    · rw [if_neg (by decide)] at g2 g6
      simp [Sig.accepts, g2, g6]
    · rw [if_neg (by decide)] at g1 g2 g3 g4 g5 g6
      simp [Sig.accepts, g1, g2, g3, g4, g5, g6]
    · rw [if_neg (by decide)] at g1 g2 g3 g4 g5
      simp [Sig.accepts, g1, g2, g3, g4, g5]
    · rw [if_neg (by decide)] at g2 g3 g4 g5 g6
      simp [Sig.accepts, g2, g3, g4, g5, g6]
  rw [if_neg (by simp [hacc]), hoE]
  cases sig <;> rfl

/-- C176: a class of machine instructions may be given its operands by position, in the order of the
command code, or by keyword: the instruction is that with the operands as Python passes them. -/
theorem C176_accepted (hc : dget CLASSES cls = some (m, sig)) (hk : (call.kws.map (·.1)).Nodup)
    (hp : Passes (classParams cls sig) call value) (x : Args)
    (hx : ∀ k, operand x k = if k ∈ operandNames sig then value k else none) :
    (callClass printable cls call).2 = construct cls x := by
  obtain ⟨o, _, h⟩ := callClass_eq printable hc hk hp x hx
  rw [h]

theorem classParams_default (cls : Str) (sig : Sig) (k : Str) (d : Bool)
    (h : (k, d) ∈ classParams cls sig) : d = true ↔ MayOmit cls sig k := by
  cases sig <;>
    simp only [classParams, List.mem_cons, Prod.mk.injEq, List.not_mem_nil, or_false] at h
  case maskable =>
    rcases h with ⟨rfl, rfl⟩ | ⟨rfl, rfl⟩ | ⟨rfl, rfl⟩ | ⟨rfl, rfl⟩ | ⟨rfl, rfl⟩ <;> simp [MayOmit]
  case peripheral | simulator =>
    obtain ⟨rfl, rfl⟩ := h
    simp [MayOmit]
  case unmasked | scientific =>
    rcases h with ⟨rfl, rfl⟩ | ⟨rfl, rfl⟩ | ⟨rfl, rfl⟩ | ⟨rfl, rfl⟩ <;> simp [MayOmit]

/-- C176: the parameters of a class are the operands of its kind, with a default for those that may be
left out; calls with arguments that cannot be
passed to them are refused with a TypeError, and nothing is printed; no others are. -/
theorem C176_refused (hc : dget CLASSES cls = some (m, sig)) (hk : (call.kws.map (·.1)).Nodup) :
    (classParams cls sig).map (·.1) = operandNames sig ∧
    (∀ k d, (k, d) ∈ classParams cls sig → (d = true ↔ MayOmit cls sig k)) ∧
    ((¬ ∃ value, Passes (classParams cls sig) call value) ↔
      callClass printable cls call = ([], .error .typeError)) := by
  refine ⟨classParams_names cls sig, classParams_default cls sig, ?_, ?_⟩
  · intro h
    have hb := bindCall_error (fun e => h ((bindCall_ok (classParams_nodup cls sig) hk).1 e))
    rw [callClass, hc]
    simp only
    rw [hb]
  · rintro h ⟨value, hp⟩
    obtain ⟨o, ho⟩ := classes_opcode hc
    have hb := (bindCall_ok (classParams_nodup cls sig) hk).2 ⟨value, hp⟩
    have hoE : dgetE OPCODES m = .ok o := by rw [dgetE, ho]
    rw [callClass, hc] at h
    simp only at h
    rw [hb] at h
    simp only at h
    rw [hoE] at h
    cases h

end

/-- Concrete cases of C176: operands by position, by keyword in another order, and mixed; too many,
one given twice, an unknown one, and one missing. -/
example : Passes (classParams (py "DecimalAdd") .maskable) ⟨[some 1], [(py "c", some 0), (py "a", some 1)]⟩
      (fun k => if k = py "c" then some 0 else if k = py "sequence" ∨ k = py "a" then some 1 else none) ∧
    (callClass (fun _ => true) (py "DecimalAdd") ⟨[some 1, some 31], []⟩).2.map (·.value) =
      .ok 0o7741 ∧
    (callClass (fun _ => true) (py "Rewind") ⟨[], [(py "paddr", some 5)]⟩).2.map (·.value) =
      .ok 0o0542 ∧
    (callClass (fun _ => true) (py "Rewind") ⟨[some 1, some 2], []⟩).2 = .error .typeError ∧
    (callClass (fun _ => true) (py "Rewind") ⟨[some 1], [(py "paddr", some 2)]⟩).2 =
      .error .typeError ∧
    (callClass (fun _ => true) (py "Rewind") ⟨[], [(py "mask", some 2)]⟩).2 = .error .typeError ∧
    (callClass (fun _ => true) (py "Rewind") {}).2 = .error .typeError := by
  refine ⟨⟨by decide, ?_, ?_, ?_, ?_⟩, by decide +kernel, by decide +kernel, by decide +kernel,
    by decide +kernel, by decide +kernel, by decide +kernel⟩
  · intro k hk
    have : k = py "c" ∨ k = py "a" := by simpa using hk
    rcases this with rfl | rfl
    · exact ⟨4, true, by decide, rfl⟩
    · exact ⟨2, true, by decide, rfl⟩
  · intro i v k d hv hp
    match i with
    | 0 => cases hv; cases hp; rfl
    | i + 1 => cases hv
  · intro k v hv
    have : (k, v) = (py "c", some 0) ∨ (k, v) = (py "a", some 1) := by simpa using hv
    rcases this with e | e <;> cases e <;> rfl
  · intro i k d hi hp hnot
    match i with
    | 0 => exact absurd hi (by decide)
    | 1 => cases hp; exact ⟨rfl, rfl⟩
    | 2 => cases hp; exact absurd (by decide) hnot
    | 3 => cases hp; exact ⟨rfl, rfl⟩
    | 4 => cases hp; exact absurd (by decide) hnot
    | i + 5 => cases hp

/-- C177, the property as stated: classes of instructions of the same type, other than `Proceed`, which
has no operands, are called in the same way. -/
def C177_statement : Prop :=
  ∀ (printable : Char → Bool) (cls cls' m m' : Str) (sig sig' : Sig) (o o' : Opcode) (call : CallArgs),
    dget CLASSES cls = some (m, sig) → dget CLASSES cls' = some (m', sig') →
    dget OPCODES m = some o → dget OPCODES m' = some o' → o.type = o'.type →
    cls ≠ py "Proceed" → cls' ≠ py "Proceed" → (call.kws.map (·.1)).Nodup →
    ((callClass printable cls call).2 = .error .typeError ↔
      (callClass printable cls' call).2 = .error .typeError)

/-- C177 is false: the sequence bit may be left out for `BinaryAdd` and not for `DecimalAdd`. -/
theorem C177_refuted : ¬ C177_statement := by
  intro h
  have := h (fun _ => true) (py "BinaryAdd") (py "DecimalAdd") (py "BA") (py "DA") .maskable .maskable
    ⟨py "BA", py "BinaryAdd", some 2, some 1, 9, py "maskable"⟩
    ⟨py "DA", py "DecimalAdd", some 2, some 1, 1, py "maskable"⟩ {} (by decide +kernel)
    (by decide +kernel) (by decide +kernel) (by decide +kernel) rfl (by decide) (by decide) (by decide)
  exact absurd (this.2 (by decide +kernel)) (by decide +kernel)

theorem callClass_typeError {printable : Char → Bool} {cls m : Str} {sig : Sig} {call : CallArgs}
    (hc : dget CLASSES cls = some (m, sig)) :
    (callClass printable cls call).2 = .error .typeError ↔
      bindCall (classParams cls sig) call.pos.length (call.kws.map (·.1)) ≠ .ok () := by
  obtain ⟨o, ho⟩ := classes_opcode hc
  have hoE : dgetE OPCODES m = .ok o := by rw [dgetE, ho]
  rw [callClass, hc]
  simp only
  by_cases hb : bindCall (classParams cls sig) call.pos.length (call.kws.map (·.1)) = .ok ()
  · rw [hb]
    simp only
    rw [hoE]
    simp only [ne_eq, not_true_eq_false, iff_false]
    intro h
    generalize sig.operands (callValues (classParams cls sig) call) = x at h
    by_cases hi : ∃ i, Instruction.init o x.sequence x.mask x.a x.b x.c x.paddr = .ok i
    · obtain ⟨i, hi⟩ := hi
      rw [hi] at h
      cases h
    · rw [(C41_accepts o x.sequence x.mask x.a x.b x.c x.paddr).2 hi] at h
      cases h
  · rw [bindCall_error hb]
    simp

/-- The parameters by the type of the opcode. -/
def typeParams (type : Str) : List (Str × Bool) :=
  if type = py "maskable" then
    [(py "sequence", false), (py "mask", true), (py "a", true), (py "b", true), (py "c", true)]
  else if type = py "peripheral" then [(py "paddr", false)]
  else if type = py "simulator" then [(py "sequence", false)]
  else [(py "sequence", false), (py "a", false), (py "b", false), (py "c", false)]

theorem classParams_type {cls m : Str} {sig : Sig} {o : Opcode}
    (hc : dget CLASSES cls = some (m, sig)) (ho : dget OPCODES m = some o) (hp : cls ≠ py "Proceed") :
    (cls ≠ py "BinaryAdd" → classParams cls sig = typeParams o.type) ∧
    (cls = py "BinaryAdd" → classParams cls sig =
      (py "sequence", true) :: (typeParams o.type).drop 1) := by
  have h : ∀ p ∈ CLASSES, p.1 ≠ py "Proceed" → ∃ o, dget OPCODES p.2.1 = some o ∧
      (p.1 ≠ py "BinaryAdd" → classParams p.1 p.2.2 = typeParams o.type) ∧
      (p.1 = py "BinaryAdd" → classParams p.1 p.2.2 =
        (py "sequence", true) :: (typeParams o.type).drop 1) := by
    have h' : ∀ p ∈ CLASSES, p.1 ≠ py "Proceed" → (match dget OPCODES p.2.1 with
        | none => False
        | some o => (p.1 ≠ py "BinaryAdd" → classParams p.1 p.2.2 = typeParams o.type) ∧
          (p.1 = py "BinaryAdd" → classParams p.1 p.2.2 =
            (py "sequence", true) :: (typeParams o.type).drop 1) : Prop) := by
      have : ∀ p ∈ CLASSES, p.1 ≠ py "Proceed" →
          (dget OPCODES p.2.1).any (fun o => (p.1 = py "BinaryAdd" ∨
            classParams p.1 p.2.2 = typeParams o.type) ∧ (p.1 ≠ py "BinaryAdd" ∨
            classParams p.1 p.2.2 = (py "sequence", true) :: (typeParams o.type).drop 1)) = true := by
        decide +kernel
      intro p hp hne
      have := this p hp hne
      cases hd : dget OPCODES p.2.1 with
      | none => rw [hd] at this; cases this
      | some o =>
        rw [hd] at this
        simp only [Option.any_some, decide_eq_true_eq] at this
        exact ⟨fun h => this.1.resolve_left h, fun h => this.2.resolve_left (not_not_intro h)⟩
    intro p hp hne
    have := h' p hp hne
    cases hd : dget OPCODES p.2.1 with
    | none => rw [hd] at this; exact this.elim
    | some o => rw [hd] at this; exact ⟨o, rfl, this⟩
  obtain ⟨o', ho', h1⟩ := h _ (dget_mem hc) hp
  simp only at ho'
  rw [ho] at ho'
  cases ho'
  exact h1

theorem bindCall_given (ps : List (Str × Bool)) (d : Bool) (n : Nat) (kws : List Str)
    (h : n ≠ 0 ∨ py "sequence" ∈ kws) :
    bindCall ((py "sequence", d) :: ps) n kws = bindCall ((py "sequence", false) :: ps) n kws := by
  unfold bindCall
  simp only [List.length_cons]
  cases n with
  | succ n => rfl
  | zero =>
    have h' : py "sequence" ∈ kws := h.resolve_left (by simp)
    simp only [List.drop_zero, List.any_cons, List.all_cons, List.contains_iff_mem.2 h', Bool.or_true]

/-- C177, what holds: the classes of a type are called in the same way if the sequence bit is given, or
if neither of them is `BinaryAdd`. -/
theorem C177_same_partial (printable : Char → Bool) (cls cls' m m' : Str) (sig sig' : Sig)
    (o o' : Opcode) (call : CallArgs) (hc : dget CLASSES cls = some (m, sig))
    (hc' : dget CLASSES cls' = some (m', sig')) (ho : dget OPCODES m = some o)
    (ho' : dget OPCODES m' = some o') (ht : o.type = o'.type) (hp : cls ≠ py "Proceed")
    (hp' : cls' ≠ py "Proceed")
    (hb : cls ≠ py "BinaryAdd" ∧ cls' ≠ py "BinaryAdd" ∨ call.pos ≠ [] ∨
      py "sequence" ∈ call.kws.map (·.1)) :
    (callClass printable cls call).2 = .error .typeError ↔
      (callClass printable cls' call).2 = .error .typeError := by
  rw [callClass_typeError hc, callClass_typeError hc']
  obtain ⟨h1, h2⟩ := classParams_type hc ho hp
  obtain ⟨h1', h2'⟩ := classParams_type hc' ho' hp'
  rcases hb with ⟨hb, hb'⟩ | hb
  · rw [h1 hb, h1' hb', ht]
  · have hn : call.pos.length ≠ 0 ∨ py "sequence" ∈ call.kws.map (·.1) :=
      hb.imp (fun h e => h (List.eq_nil_of_length_eq_zero e)) id
    have key : ∀ {c c' mm mm' : Str} {g g' : Sig} {q q' : Opcode}, dget CLASSES c = some (mm, g) →
        dget OPCODES mm = some q → c ≠ py "Proceed" →
        bindCall (classParams c g) call.pos.length (call.kws.map (·.1)) =
          bindCall (typeParams q.type) call.pos.length (call.kws.map (·.1)) := by
      intro c c' mm mm' g g' q q' hc ho hp
      by_cases hba : c = py "BinaryAdd"
      · rw [(classParams_type hc ho hp).2 hba, bindCall_given _ _ _ _ hn]
        subst hba
        have e : (mm, g) = (py "BA", .maskable) :=
          Option.some.inj (hc.symm.trans (by decide +kernel))
        cases e
        have e' : q = ⟨py "BA", py "BinaryAdd", some 2, some 1, 9, py "maskable"⟩ :=
          Option.some.inj (ho.symm.trans (by decide +kernel))
        rw [e']
        rfl
      · rw [(classParams_type hc ho hp).1 hba]
    rw [key (c' := cls') (mm' := m') (g' := sig') (q' := o') hc ho hp,
      key (c' := cls') (mm' := m') (g' := sig') (q' := o') hc' ho' hp', ht]

/-- Concrete cases of C177: the sequence bit is given and another one is missing. -/
example : (callClass (fun _ => true) (py "BinaryAdd") ⟨[], [(py "sequence", some 0)]⟩).2.map (·.value) =
      .ok 0o2011 ∧
    (callClass (fun _ => true) (py "Transfer") ⟨[some 0], []⟩).2.map (·.value) = .ok 0o2020 ∧
    (callClass (fun _ => true) (py "PrintOctal") ⟨[some 0, some 0, some 0], []⟩).2 =
      .error .typeError ∧
    (callClass (fun _ => true) (py "PrintDecimal") ⟨[some 0, some 0, some 0], []⟩).2 =
      .error .typeError := by
  refine ⟨?_, ?_, ?_, ?_⟩ <;> decide +kernel

/-! ### The line printed by the constructor -/

theorem showOpt_chars (v : Option Int) : ∀ c ∈ showOpt v, c ≠ ',' ∧ c ≠ ' ' ∧ c ≠ '\n' := by
  intro c hc
  cases v with
  | none =>
    have : ∀ c ∈ py "None", c ≠ ',' ∧ c ≠ ' ' ∧ c ≠ '\n' := by decide
    exact this c hc
  | some n =>
    rcases pyStr_chars n c hc with h | h
    · subst h; decide
    · refine ⟨?_, ?_, ?_⟩ <;> rintro rfl <;> exact absurd h.1 (by decide)

theorem showOpt_inj {v w : Option Int} (h : showOpt v = showOpt w) : v = w := by
  have none_ne : ∀ n : Int, pyStr n ≠ py "None" := by
    intro n e
    rcases pyStr_chars n 'N' (by rw [e]; decide) with h | h
    · exact absurd h (by decide)
    · exact absurd h.2 (by decide)
  cases v with
  | none =>
    cases w with
    | none => rfl
    | some n => exact absurd h.symm (none_ne n)
  | some m =>
    cases w with
    | none => exact absurd h (none_ne m)
    | some n => exact congrArg some (pyStr_inj h)

theorem readable_showOpt (c : Char) (q : Str) (hc : c = ',' ∨ c = ' ') :
    Readable (fun v => showOpt v ++ c :: q) (fun v => showOpt v ++ c :: q) id := by
  refine readable_until c q ?_ ?_ (fun a b h => showOpt_inj h)
  all_goals
    intro v hv
    rcases hc with rfl | rfl
    · exact (showOpt_chars v _ hv).1 rfl
    · exact (showOpt_chars v _ hv).2.1 rfl

theorem opcode_reads {p p' : Char → Bool} {o o' : Opcode} {s t : Str}
    (e : o.text p ++ s = o'.text p' ++ t) : o = o' ∧ s = t := by
  obtain ⟨m, cl, b23, b7, op, ty⟩ := o
  obtain ⟨m', cl', b23', b7', op', ty'⟩ := o'
  simp only [Opcode.text, List.append_assoc] at e
  have e := List.append_cancel_left e
  obtain ⟨h1, e⟩ := readable_str p p' _ _ _ _ e
  have e := List.append_cancel_left e
  obtain ⟨h2, e⟩ := readable_str p p' _ _ _ _ e
  have e := List.append_cancel_left e
  obtain ⟨h3, e⟩ := readable_showOpt ',' (py " b7=") (.inl rfl) b23 b23' _ _
    (by simpa only [List.append_assoc] using e)
  obtain ⟨h4, e⟩ := readable_showOpt ',' (py " op=") (.inl rfl) b7 b7' _ _
    (by simpa only [List.append_assoc] using e)
  obtain ⟨h5, e⟩ := readable_line (py " type=") op op' _ _
    (by simpa only [List.append_assoc] using e)
  obtain ⟨h6, e⟩ := readable_str p p' _ _ _ _ e
  have e := List.append_cancel_left e
  simp only [id_eq] at h1 h2 h3 h4 h5 h6
  exact ⟨by rw [h1, h2, h3, h4, h5, h6], e⟩

/-- C178: the line that the constructor prints tells the opcode and the operands, whatever they are. -/
theorem C178_tells (p p' : Char → Bool) (o o' : Opcode) (s k a b c d s' k' a' b' c' d' : Option Int)
    (e : Instruction.line p o s k a b c d = Instruction.line p' o' s' k' a' b' c' d') :
    o = o' ∧ s = s' ∧ k = k' ∧ a = a' ∧ b = b' ∧ c = c' ∧ d = d' := by
  simp only [Instruction.line, List.append_assoc] at e
  have e := List.append_cancel_left e
  obtain ⟨h1, e⟩ := opcode_reads e
  have e := List.append_cancel_left e
  obtain ⟨h2, e⟩ := readable_showOpt ' ' (py "mask:") (.inr rfl) s s' _ _
    (by simpa only [List.append_assoc] using e)
  obtain ⟨h3, e⟩ := readable_showOpt ' ' (py "a=") (.inr rfl) k k' _ _
    (by simpa only [List.append_assoc] using e)
  obtain ⟨h4, e⟩ := readable_showOpt ' ' (py "b=") (.inr rfl) a a' _ _
    (by simpa only [List.append_assoc] using e)
  obtain ⟨h5, e⟩ := readable_showOpt ' ' (py "c=") (.inr rfl) b b' _ _
    (by simpa only [List.append_assoc] using e)
  obtain ⟨h6, e⟩ := readable_showOpt ' ' (py "paddr=") (.inr rfl) c c' _ _
    (by simpa only [List.append_assoc] using e)
  exact ⟨h1, h2, h3, h4, h5, h6, showOpt_inj e⟩

theorem line_newline (p : Char → Bool) (o : Opcode) (s k a b c d : Option Int) :
    '\n' ∉ Instruction.line p o s k a b c d := by
  have h : ∀ v, '\n' ∉ showOpt v := fun v hv => (showOpt_chars v _ hv).2.2 rfl
  have q : ∀ t, '\n' ∉ reprStr p t := reprStr_newline p
  have n : ∀ m, '\n' ∉ pyStr m := pyStr_no_newline
  simp only [Instruction.line, Opcode.text, List.mem_append, not_or]
  simp only [h, q, n, not_false_eq_true, and_true]
  decide

/-- C178: a call of a class prints one line if its arguments can be passed, whether or not the operands
are then accepted, and none otherwise. -/
theorem C178_once (printable : Char → Bool) (cls m : Str) (sig : Sig) (call : CallArgs)
    (hc : dget CLASSES cls = some (m, sig)) :
    ((callClass printable cls call).2 = .error .typeError ∧ (callClass printable cls call).1 = []) ∨
    ((callClass printable cls call).2 ≠ .error .typeError ∧
      ∃ l, (callClass printable cls call).1 = [l] ∧ '\n' ∉ l) := by
  obtain ⟨o, ho⟩ := classes_opcode hc
  have hoE : dgetE OPCODES m = .ok o := by rw [dgetE, ho]
  by_cases hb : bindCall (classParams cls sig) call.pos.length (call.kws.map (·.1)) = .ok ()
  · refine .inr ⟨fun h => (callClass_typeError hc).1 h hb, ?_⟩
    rw [callClass, hc]
    simp only
    rw [hb]
    simp only
    rw [hoE]
    exact ⟨_, rfl, line_newline _ _ _ _ _ _ _ _⟩
  · refine .inl ⟨(callClass_typeError hc).2 hb, ?_⟩
    rw [callClass, hc]
    simp only
    rw [bindCall_error hb]

/-- C178: calls, of the same class or not, that print the same line make equal instructions, or are
rejected with the same error. -/
theorem C178_same (p p' : Char → Bool) (cls cls' : Str) (call call' : CallArgs) (l : Str)
    (h : (callClass p cls call).1 = [l]) (h' : (callClass p' cls' call').1 = [l]) :
    (callClass p cls call).2 = (callClass p' cls' call').2 := by
  have key : ∀ (q : Char → Bool) (k : Str) (cl : CallArgs), (callClass q k cl).1 = [l] →
      ∃ o s m a b c d, l = Instruction.line q o s m a b c d ∧
        (callClass q k cl).2 = Instruction.init o s m a b c d := by
    intro q k cl h
    rw [callClass] at h ⊢
    cases hc : dget CLASSES k with
    | none => rw [hc] at h; cases h
    | some r =>
      rw [hc] at h
      simp only at h ⊢
      cases hb : bindCall (classParams k r.2) cl.pos.length (cl.kws.map (·.1)) with
      | error e => rw [hb] at h; cases h
      | ok u =>
        rw [hb] at h
        simp only at h ⊢
        cases ho : dgetE OPCODES r.1 with
        | error e => rw [ho] at h; cases h
        | ok o =>
          rw [ho] at h
          simp only at h ⊢
          exact ⟨_, _, _, _, _, _, _, (List.cons.inj h).1.symm, rfl⟩
  obtain ⟨o, s, m, a, b, c, d, e, r⟩ := key p cls call h
  obtain ⟨o', s', m', a', b', c', d', e', r'⟩ := key p' cls' call' h'
  obtain ⟨rfl, rfl, rfl, rfl, rfl, rfl, rfl⟩ := C178_tells p p' _ _ _ _ _ _ _ _ _ _ _ _ _ _ (e.symm.trans e')
  rw [r, r']

/-- A concrete case of C178: a rejected peripheral address is printed all the same. -/
example : callClass (fun _ => true) (py "Rewind") ⟨[some 64], []⟩ =
      ([py "opcode:Opcode(m='RW', c='Rewind', b23=None, b7=1, op=2, type='peripheral') sequence:None mask:None a=None b=None c=None paddr=64"],
        .error .valueError) ∧
    (callClass (fun _ => true) (py "Rewind") ⟨[], []⟩).1 = [] := by
  refine ⟨?_, ?_⟩ <;> decide +kernel

end H800
