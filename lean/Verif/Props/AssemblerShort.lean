import Verif.Props.Assembler

/-!
C114: an assembler that has fewer records than its context.
-/

namespace H800

open Spec

/-- One pass over records that are all present, but too few. -/
theorem pass_short (cur : Option PRecord) (m : Nat) (pre : List (Option PRecord)) (rs : List PRecord)
    (undef : List PRecord) :
    Assembler.pass cur pre.length (rs.length + (m + 1)) (pre ++ rs.map some) undef =
      (pre ++ replaced cur rs, .error .indexError) := by
  induction rs generalizing pre undef with
  | nil => simp [Assembler.pass, replaced]
  | cons r rs ih =>
    rw [List.length_cons, Nat.add_right_comm, Assembler.pass]
    have hget : (pre ++ (r :: rs).map some)[pre.length]? = some (some r) := by simp
    rw [hget]
    simp only
    by_cases hr : r.parseable = true
    · rw [if_pos hr]
      have hset : (pre ++ (r :: rs).map some).set pre.length cur =
          (pre ++ [cur]) ++ rs.map some := by
        rw [List.set_append_right _ _ (le_refl _)]
        simp
      have := ih (pre ++ [cur]) (if r.complete then undef else undef ++ [r])
      rw [List.length_append, List.length_singleton] at this
      rw [hset, this]
      simp [replaced, hr]
    · rw [if_neg hr]
      have := ih (pre ++ [some r]) undef
      rw [List.length_append, List.length_singleton, List.append_assoc] at this
      have e : [some r] ++ rs.map some = (r :: rs).map some := rfl
      rw [e] at this
      rw [this]
      simp [replaced, hr]

/-- C114, what holds for an assembler that has fewer records than its context: IndexError in the first pass;
nothing is reported, and the parseable records are overwritten by the context's current record. -/
theorem C114_short_partial (a : Assembler) (ctx : AsmContext) (rs : List PRecord) (maxPasses : Nat)
    (hc : a.context = some ctx) (hr : a.records = some (rs.map some))
    (hl : rs.length < ctx.records.length) (hm : 1 ≤ maxPasses) :
    a.resolve maxPasses = ({ a with
      passnum := some 1
      records := some (replaced ctx.currentRecord rs) }, .error .indexError) := by
  obtain ⟨m, rfl⟩ : ∃ m, maxPasses = m + 1 := ⟨maxPasses - 1, by omega⟩
  obtain ⟨d, hd⟩ : ∃ d, ctx.records.length = rs.length + d + 1 :=
    ⟨ctx.records.length - rs.length - 1, by omega⟩
  have hp := pass_short ctx.currentRecord d [] rs []
  simp only [List.length_nil, List.nil_append, ← Nat.add_assoc] at hp
  unfold Assembler.resolve
  rw [hc]
  simp only
  rw [Assembler.passes]
  simp only [hr, hd, hp]
  rw [hc]

/-- An assembler with one record and a context with two. -/
example : ({ Assembler.init with
      context := some ⟨[some ⟨1, true, false⟩, some ⟨2, true, true⟩], none⟩
      records := some [some ⟨1, true, false⟩] }.resolve 10).2 = .error .indexError := by decide +kernel

end H800
