import Verif.Lemmas.Messages
import Verif.Props.Instruction
import Verif.Props.Word

/-!
C183: what the exceptions of instructions and words say.
-/

namespace H800
open Spec

/-- A check and its text: it passes and there is none, or it raises ValueError and there is one. -/
def Tied (c : Py Unit) (t : Option Str) : Prop :=
  (c = .ok () ∧ t = none) ∨ (c = .error .valueError ∧ ∃ u, t = some u)

theorem Tied.bind {c c' : Py Unit} {t t' : Option Str} (h : Tied c t) (h' : Tied c' t') :
    Tied (c >>= fun _ => c') (t.or t') := by
  rcases h with ⟨rfl, rfl⟩ | ⟨rfl, u, rfl⟩
  · exact h'
  · exact Or.inr ⟨rfl, u, rfl⟩

theorem Tied.raise {c : Py Unit} {t : Option Str} (h : Tied c t) :
    c = .error .valueError ↔ ∃ u, t = some u := by
  rcases h with ⟨rfl, rfl⟩ | ⟨rfl, u, rfl⟩ <;> simp

theorem tied_if {P : Prop} [Decidable P] {c : Py Unit} {t : Option Str} {u : Str}
    (h : Tied c t) : Tied (if P then .error .valueError else c) (if P then some u else t) := by
  by_cases hp : P
  · rw [if_pos hp, if_pos hp]; exact Or.inr ⟨rfl, u, rfl⟩
  · rw [if_neg hp, if_neg hp]; exact h

theorem tied_ok : Tied (.ok ()) none := Or.inl ⟨rfl, rfl⟩

theorem tied_check (o : Opcode) (s m a b c p : Option Int) :
    Tied (Instruction.check o s m a b c p) (Instruction.initText o s m a b c p) := by
  have hb : ∀ n x, Tied (Instruction.checkBit x) (Instruction.checkBitText n x) := by
    intro n x
    cases x with
    | none => exact tied_ok
    | some v => exact tied_if tied_ok
  have ho : ∀ x l u, Tied (Instruction.checkOpt x l) (Instruction.checkOptText x l u) := by
    intro x l u
    cases x with
    | none => exact tied_ok
    | some v => exact tied_if tied_ok
  refine Tied.bind ?_ (Tied.bind ?_ (Tied.bind (hb _ _) (Tied.bind (hb _ _) (Tied.bind (hb _ _)
    (Tied.bind ?_ (Tied.bind (ho _ _ _) (Tied.bind (ho _ _ _) (tied_if tied_ok))))))))
  · cases s with
    | none => exact tied_ok
    | some v => exact tied_if (tied_if tied_ok)
  · cases m with
    | none => exact tied_ok
    | some v => exact tied_if (tied_if (tied_if tied_ok))
  · cases p with
    | none => exact tied_ok
    | some v => exact tied_if (tied_if tied_ok)

theorem or_cases {α : Type} {x y : Option α} {t : α} (h : x.or y = some t) :
    x = some t ∨ (x = none ∧ y = some t) := by
  cases x with
  | none => exact Or.inr ⟨rfl, h⟩
  | some v => exact Or.inl h

theorem sequence_text {o : Opcode} {s m a b c p : Option Int} {t : Str}
    (h : Instruction.checkSequenceText s p = some t) : OperandFault o s m a b c p t := by
  unfold Instruction.checkSequenceText at h
  split at h
  · cases h
  · rename_i v
    by_cases h1 : Instruction.truthy p = true
    · rw [if_pos h1] at h; cases h
      cases p with
      | none => cases h1
      | some q => exact .sequencePaddr rfl rfl
    · rw [if_neg h1] at h
      by_cases h2 : Instruction.notBool v
      · rw [if_pos h2] at h; cases h; exact .sequence rfl h2
      · rw [if_neg h2] at h; cases h

theorem mask_text {o : Opcode} {s m a b c p : Option Int} {t : Str}
    (h : Instruction.checkMaskText o.type m a b c p = some t) : OperandFault o s m a b c p t := by
  unfold Instruction.checkMaskText at h
  split at h
  · cases h
  · rename_i v
    by_cases h1 : o.type ≠ py "maskable"
    · rw [if_pos h1] at h; cases h; exact .notMaskable rfl h1
    · rw [if_neg h1] at h
      by_cases h2 : a.isSome ∨ b.isSome ∨ c.isSome ∨ p.isSome
      · rw [if_pos h2] at h; cases h
        rcases h2 with h2 | h2 | h2 | h2 <;> obtain ⟨x, rfl⟩ := Option.isSome_iff_exists.1 h2 <;>
          exact .maskOther (x := x) rfl (by simp)
      · rw [if_neg h2] at h
        by_cases h3 : v < 0 ∨ v > 31
        · rw [if_pos h3] at h; cases h
          exact .mask rfl (fun hf => by unfold Fits at hf; omega)
        · rw [if_neg h3] at h; cases h

theorem bit_text {x : Option Int} {name t : Str}
    (h : Instruction.checkBitText name x = some t) :
    t = name ++ py " must be boolean!" ∧ ∃ v, x = some v ∧ ¬ Bit v := by
  unfold Instruction.checkBitText at h
  split at h
  · cases h
  · rename_i v
    by_cases h2 : Instruction.notBool v
    · rw [if_pos h2] at h; cases h; exact ⟨rfl, v, rfl, h2⟩
    · rw [if_neg h2] at h; cases h

theorem paddr_text {o : Opcode} {s m a b c p : Option Int} {t : Str}
    (h : Instruction.checkPaddrText s m a b c p = some t) : OperandFault o s m a b c p t := by
  unfold Instruction.checkPaddrText at h
  split at h
  · cases h
  · rename_i v
    by_cases h2 : s.isSome ∨ m.isSome ∨ a.isSome ∨ b.isSome ∨ c.isSome
    · rw [if_pos h2] at h; cases h
      rcases h2 with h2 | h2 | h2 | h2 | h2 <;> obtain ⟨x, rfl⟩ := Option.isSome_iff_exists.1 h2 <;>
        exact .paddrOther (x := x) rfl (by simp)
    · rw [if_neg h2] at h
      by_cases h3 : v < 0 ∨ v > 63
      · rw [if_pos h3] at h; cases h
        exact .paddr rfl (fun hf => by unfold Fits at hf; omega)
      · rw [if_neg h3] at h; cases h

theorem opt_text {x : Option Int} {n : Int} {text t : Str}
    (h : Instruction.checkOptText x n text = some t) :
    t = text ∧ ∃ v, x = some v ∧ (v < 0 ∨ v > n) := by
  unfold Instruction.checkOptText at h
  split at h
  · cases h
  · rename_i v
    by_cases h2 : v < 0 ∨ v > n
    · rw [if_pos h2] at h; cases h; exact ⟨rfl, v, rfl, h2⟩
    · rw [if_neg h2] at h; cases h

/-- C183: the message of a refused instruction names something that is wrong with its operands. -/
theorem C183_true {o : Opcode} {s m a b c p : Option Int} {t : Str}
    (h : Instruction.initText o s m a b c p = some t) : OperandFault o s m a b c p t := by
  unfold Instruction.initText at h
  rcases or_cases h with h | ⟨_, h⟩
  · exact sequence_text h
  rcases or_cases h with h | ⟨_, h⟩
  · exact mask_text h
  rcases or_cases h with h | ⟨_, h⟩
  · obtain ⟨rfl, v, rfl, hv⟩ := bit_text h; exact .a rfl hv
  rcases or_cases h with h | ⟨_, h⟩
  · obtain ⟨rfl, v, rfl, hv⟩ := bit_text h; exact .b rfl hv
  rcases or_cases h with h | ⟨_, h⟩
  · obtain ⟨rfl, v, rfl, hv⟩ := bit_text h; exact .c rfl hv
  rcases or_cases h with h | ⟨_, h⟩
  · exact paddr_text h
  rcases or_cases h with h | ⟨_, h⟩
  · obtain ⟨rfl, v, hv, hn⟩ := opt_text h
    exact .bit7 hv (fun hf => by unfold Bit at hf; omega)
  rcases or_cases h with h | ⟨_, h⟩
  · obtain ⟨rfl, v, hv, hn⟩ := opt_text h
    exact .bits23 hv (fun hf => by unfold Fits at hf; omega)
  by_cases h3 : o.op < 0 ∨ o.op > 31
  · rw [if_pos h3] at h; cases h
    exact .opcode (fun hf => by unfold Fits at hf; omega)
  · rw [if_neg h3] at h; cases h

/-- Legal operands are those with which nothing is wrong. -/
theorem legal_faultless (o : Opcode) (s m a b c p : Option Int) :
    (LegalOperands (o.type = py "maskable") s m a b c p ∧ LegalRecord o.b23 o.b7 o.op) ↔
      ∀ t, ¬ OperandFault o s m a b c p t := by
  constructor
  · rintro ⟨⟨h1, h2, h3, h4, h5, h6⟩, h7, h8, h9⟩ t ht
    cases ht with
    | sequencePaddr hs hp => have := (h6 _ hp).1; rw [hs] at this; cases this
    | sequence hs hb => exact hb (h1 _ hs)
    | notMaskable hm ht => exact ht (h5 _ hm).1
    | maskOther hm hx =>
      obtain ⟨_, q1, q2, q3, q4, _⟩ := h5 _ hm
      subst q1 q2 q3 q4
      simp at hx
    | mask hm hf => exact hf (h5 _ hm).2.2.2.2.2
    | a hx hb => exact hb (h2 _ hx)
    | b hx hb => exact hb (h3 _ hx)
    | c hx hb => exact hb (h4 _ hx)
    | paddrOther hp hx =>
      obtain ⟨q0, q1, q2, q3, q4, _⟩ := h6 _ hp
      subst q0 q1 q2 q3 q4
      simp at hx
    | paddr hp hf => exact hf (h6 _ hp).2.2.2.2.2
    | bit7 hx hb =>
      have := h8 _ hx
      unfold Fits at this; unfold Bit at hb; omega
    | bits23 hx hf => exact hf (h7 _ hx)
    | opcode hf => exact hf h9
  · intro h
    have hno : ∀ {l : List (Option Int)} {t : Str},
        (∀ x, some x ∈ l → OperandFault o s m a b c p t) → ∀ y ∈ l, y = none := by
      intro l t hl y hy
      cases y with
      | none => rfl
      | some x => exact absurd (hl x hy) (h _)
    have hbit : ∀ {P : Prop} [Decidable P] {t : Str}, (¬ P → OperandFault o s m a b c p t) → P := by
      intro P _ t hP
      by_contra hc
      exact h _ (hP hc)
    refine ⟨⟨fun v hv => hbit (.sequence hv), fun v hv => hbit (.a hv), fun v hv => hbit (.b hv),
      fun v hv => hbit (.c hv), ?_, ?_⟩, fun v hv => hbit (.bits23 hv), ?_, hbit .opcode⟩
    · intro v hv
      have := hno (l := [a, b, c, p]) (fun x hx => .maskOther hv hx)
      exact ⟨hbit (.notMaskable hv), this a (by simp), this b (by simp), this c (by simp),
        this p (by simp), hbit (.mask hv)⟩
    · intro v hv
      have := hno (l := [s, m, a, b, c]) (fun x hx => .paddrOther hv hx)
      exact ⟨this s (by simp), this m (by simp), this a (by simp), this b (by simp),
        this c (by simp), hbit (.paddr hv)⟩
    · intro v hv
      have : Bit v := hbit (.bit7 hv)
      exact bit_fits this

/-- C183: an instruction is made exactly if nothing is wrong with its operands; otherwise ValueError is
raised, with a message. -/
theorem C183_raise (o : Opcode) (s m a b c p : Option Int) :
    ((∃ i, Instruction.init o s m a b c p = .ok i) ↔ ∀ t, ¬ OperandFault o s m a b c p t) ∧
    (Instruction.init o s m a b c p = .error .valueError ↔
      ∃ t, Instruction.initText o s m a b c p = some t) := by
  have hA := C41_accepts o s m a b c p
  refine ⟨hA.1.trans (legal_faultless o s m a b c p), ?_⟩
  rw [← (tied_check o s m a b c p).raise, check_eq, init_exact]
  by_cases h : Legal o s m a b c p <;> simp [h]

/-- C183: the message of a refused constant is given exactly if its data are no number of 48 bits, and
the bounds it names are those of such numbers. -/
theorem C183_constant (mnemonic : Str) (data : Int) :
    ((∃ w, Constant.init mnemonic data = .ok w) ↔ Fits 48 data) ∧
    (Constant.init mnemonic data = .error .valueError ↔ ∃ t, Constant.initText data = some t) ∧
    ∀ t, Constant.initText data = some t → ¬ Fits 48 data ∧
      ∃ n : Int, (∀ v, Fits 48 v ↔ 0 ≤ v ∧ v ≤ n) ∧ ∃ w, Shortest n w ∧
        t = py "Opcode must be in the range 0.." ++ w ++ py "!" := by
  unfold Constant.init Constant.initText
  by_cases h : Fits 48 data
  · have h' := (fits48 data).1 h
    rw [if_neg h', if_neg h', word_init, if_pos h]
    exact ⟨⟨fun _ => h, fun _ => ⟨_, rfl⟩⟩, by simp, nofun⟩
  · have h' : data < 0 ∨ data > 2 ^ 48 - 1 := by
      rw [fits48] at h; exact not_not.1 h
    rw [if_pos h', if_pos h']
    refine ⟨⟨nofun, fun g => absurd g h⟩, ⟨fun _ => ⟨_, rfl⟩, fun _ => rfl⟩, ?_⟩
    rintro t ⟨⟩
    refine ⟨h, 2 ^ 48 - 1, ?_, _, pyStr_shortest _, rfl⟩
    intro v
    unfold Fits; omega

example : Instruction.initText ⟨py "BA", py "X", none, some 1, 4, py "maskable"⟩ (some 1) (some 32)
      none none none none = some (py "Mask must be in the range 0..31!") ∧
    Instruction.initText ⟨py "BA", py "X", none, some 1, 4, py "maskable"⟩ (some 1) (some 31)
      none none none none = none ∧
    Instruction.initText ⟨py "BA", py "X", none, some 1, 4, py "maskable"⟩ (some 1) none
      none none none (some 5) = some (py "Cannot specify sequence and peripheral address!") ∧
    Instruction.initText ⟨py "BA", py "X", none, some 1, 4, py "maskable"⟩ (some 1) none
      none none none (some 0) =
        some (py "Cannot specify sequence, mask, A, B, or C with peripheral address!") ∧
    Constant.initText (2 ^ 48) = some (py "Opcode must be in the range 0..281474976710655!") := by
  decide +kernel

end H800
