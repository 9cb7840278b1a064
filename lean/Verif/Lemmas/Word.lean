import Verif.Model.Word
import Verif.Lemmas.Fields

/-! Normal forms of the word operations. -/

namespace H800

open Spec BitField

/-- The word object holding `v`. -/
def mkWord (v : Int) : Word := ⟨⟨48, v, .msb1, .msbLeft⟩⟩

theorem assign_ok {b b' : BitField} {k : Key} {x : Int} (h : b.setitem k x = (b', .ok ())) :
    b.assign k x = .ok b' := by
  unfold assign; rw [h]

theorem fits48 (v : Int) : Fits 48 v ↔ ¬ (v < 0 ∨ v > 2 ^ 48 - 1) := by
  unfold Fits; omega

theorem word_init (v : Int) :
    Word.init v = if Fits 48 v then .ok (mkWord v) else .error .valueError := by
  unfold Word.init
  by_cases h : Fits 48 v
  · rw [if_pos h, if_neg ((fits48 v).1 h)]
    have hi : BitField.init 0 48 3 0 = .ok ⟨48, 0, .msb1, .msbLeft⟩ := by decide
    have hs := setitem_putField ⟨48, 0, .msb1, .msbLeft⟩ 1 48 v 0 48 rfl (by decide) (by decide)
      (by decide) (by decide) (by decide) h
    rw [hi]
    simp only [py_pure, py_bind_ok]
    rw [assign_ok hs]
    simp only [py_bind_ok]
    congr 2
    simp [putField, field]
  · rw [if_neg h, if_pos (by rw [fits48] at h; exact not_not.1 h)]
    rfl

theorem word_setValue (u v : Int) :
    (mkWord u).setValue v =
      if Fits 48 v then (mkWord v, .ok ()) else (mkWord u, .error .valueError) := by
  unfold Word.setValue
  by_cases h : Fits 48 v
  · rw [if_pos h, if_neg ((fits48 v).1 h)]
    have : (mkWord u).data.setValue v = ((mkWord v).data, .ok ()) := by
      have hc : (mkWord u).data.checkValue v none = .ok () := by
        have := checkValue_some (b := (mkWord u).data) (x := v) (n := 48) (le_refl 48) (by decide)
        rw [if_pos (by unfold Fits at h; omega)] at this
        exact this
      unfold BitField.setValue; rw [hc]; rfl
    rw [this]
  · rw [if_neg h, if_pos (by rw [fits48] at h; exact not_not.1 h)]

/-- Position of a field in the word. -/
def IField.lo : IField → Nat
  | .command => 36 | .a => 24 | .b => 12 | .c => 0

theorem iword_get (v : Int) (f : IField) :
    InstructionWord.get (mkWord v) f = .ok (field v f.lo 12) := by
  cases f
  · exact msb1_get 48 v 1 12 36 12 (by decide) (by decide) (by decide) (by decide)
  · exact msb1_get 48 v 13 24 24 12 (by decide) (by decide) (by decide) (by decide)
  · exact msb1_get 48 v 25 36 12 12 (by decide) (by decide) (by decide) (by decide)
  · exact msb1_get 48 v 37 48 0 12 (by decide) (by decide) (by decide) (by decide)

theorem iword_set (v x : Int) (f : IField) (hv : Fits 48 v) (hx : Fits 12 x) :
    InstructionWord.set (mkWord v) f x = (mkWord (putField v f.lo 12 x), .ok ()) := by
  unfold InstructionWord.set
  have : (mkWord v).data.setitem f.key x = ((mkWord (putField v f.lo 12 x)).data, .ok ()) := by
    cases f
    · exact msb1_set 48 v x 1 12 36 12 (by decide) (by decide) (by decide) (by decide) hv hx
    · exact msb1_set 48 v x 13 24 24 12 (by decide) (by decide) (by decide) (by decide) hv hx
    · exact msb1_set 48 v x 25 36 12 12 (by decide) (by decide) (by decide) (by decide) hv hx
    · exact msb1_set 48 v x 37 48 0 12 (by decide) (by decide) (by decide) (by decide) hv hx
  rw [this]

theorem iword_set_large (v x : Int) (f : IField) (hx : x > 4096) :
    InstructionWord.set (mkWord v) f x = (mkWord v, .error .valueError) := by
  unfold InstructionWord.set
  have h12 : ¬ x ≤ 2 ^ 12 := by norm_num; omega
  have : (mkWord v).data.setitem f.key x = ((mkWord v).data, .error .valueError) := by
    cases f
    · exact msb1_set_large 48 v x 1 12 36 12 (by decide) (by decide) (by decide) (by decide) h12
    · exact msb1_set_large 48 v x 13 24 24 12 (by decide) (by decide) (by decide) (by decide) h12
    · exact msb1_set_large 48 v x 25 36 12 12 (by decide) (by decide) (by decide) (by decide) h12
    · exact msb1_set_large 48 v x 37 48 0 12 (by decide) (by decide) (by decide) (by decide) h12
  rw [this]

theorem putField_fits (v x : Int) (f : IField) (hv : Fits 48 v) (hx : Fits 12 x) :
    Fits 48 (putField v f.lo 12 x) := by
  unfold Fits putField field at *
  cases f <;> simp only [IField.lo] <;> norm_num at * <;> omega

theorem field_putField (v x : Int) (f g : IField) (hx : Fits 12 x) :
    field (putField v f.lo 12 x) g.lo 12 = if g = f then x else field v g.lo 12 := by
  unfold Fits at hx
  cases f <;> cases g <;>
    simp only [IField.lo, reduceCtorEq, if_true, if_false, putField, field] <;>
    norm_num at * <;> omega

end H800
