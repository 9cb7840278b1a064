import Verif.Spec.Keys
import Verif.Lemmas.Values

namespace H800

open Spec

theorem equals_float {q : Rat} : (∃ n, Equals (.float (.fin q)) n) ↔ q.den = 1 := by
  constructor
  · rintro ⟨n, h | h⟩
    · cases h
    · cases h
      rfl
  · intro h
    exact ⟨q.num, Or.inr (by rw [Rat.den_eq_one_iff q |>.1 h])⟩

theorem ofInts_equals {k : PyKey} {n : Int} (h : Equals k n) : k.ofInts = .ok n := by
  rcases h with rfl | rfl
  · rfl
  · simp [PyKey.ofInts]

theorem ofInts_hashable {k : PyKey} (h : ¬ ∃ n, Equals k n) (hh : HasHash k) :
    k.ofInts = .error .keyError := by
  cases k with
  | int n => exact absurd ⟨n, Or.inl rfl⟩ h
  | float x =>
    cases x with
    | fin q =>
      rw [equals_float] at h
      simp only [PyKey.ofInts, if_neg h]
    | inf => rfl
    | ninf => rfl
    | nan => rfl
  | str s => rfl
  | tuple l b =>
    have hb : b = true := hh
    subst hb
    rfl
  | slice s e => exact hh.elim
  | object b =>
    have hb : b = true := hh
    subst hb
    rfl

theorem ofInts_unhashable {k : PyKey} (hh : ¬ HasHash k) : k.ofInts = .error .typeError := by
  cases k with
  | int n => exact absurd trivial hh
  | float x => exact absurd trivial hh
  | str s => exact absurd trivial hh
  | tuple l b =>
    have hb : b = false := by simpa [HasHash] using hh
    subst hb
    rfl
  | slice s e => rfl
  | object b =>
    have hb : b = false := by simpa [HasHash] using hh
    subst hb
    rfl

theorem not_slice_equals {k : PyKey} {n : Int} (h : Equals k n) : ¬ IsSlice k := by
  rintro ⟨s, e, rfl⟩
  rcases h with h | h <;> cases h

theorem bank_getK {m : MemoryBank} {k : PyKey} (h : ¬ IsSlice k) :
    m.getK k = k.ofInts >>= fun a => m.get a >>= fun v => pure (.inl v) := by
  cases k with
  | slice s e => exact absurd ⟨s, e, rfl⟩ h
  | _ => rfl

theorem bank_setK {F : FloatOps} {m : MemoryBank} {k : PyKey} {v : PyVal} (h : ¬ IsSlice k) :
    m.setK F k v = match k.ofInts with
      | .error e => (m, .error e)
      | .ok a => m.setV F a v := by
  cases k with
  | slice s e => exact absurd ⟨s, e, rfl⟩ h
  | _ => rfl

theorem module_getK {m : MemoryModule} {k : PyKey} (h : ¬ IsSlice k) :
    m.getK k = k.ofInts >>= fun a => m.bank a >>= fun v => pure (.inl v) := by
  cases k with
  | slice s e => exact absurd ⟨s, e, rfl⟩ h
  | _ => rfl

theorem nameOfK_equals {k : PyKey} {n : Int} (h : Equals k n) (d : Dict Str Int) :
    nameOfK k d = nameOf n d := by
  rcases h with rfl | rfl
  · rfl
  · simp [nameOfK]

theorem nameOfK_none {k : PyKey} (h : ¬ ∃ n, Equals k n) (d : Dict Str Int) : nameOfK k d = none := by
  cases k with
  | int n => exact absurd ⟨n, Or.inl rfl⟩ h
  | float x =>
    cases x with
    | fin q =>
      rw [equals_float] at h
      simp only [nameOfK, if_neg h]
    | _ => rfl
  | _ => rfl

end H800
