import Verif.Props.Groups
import Verif.Props.Memory

/-!
Property C207: the 15-bit addresses of the manual (Section IV) name the words of a main memory of four
modules, one each.
-/

namespace H800

open Spec

/-! ### C207 -/

/-- A word of the memory by the address in a special register, as Figure IV-1 of the manual divides it:
the bank indicator, bits 2 to 5 (two bits for the module, two for the bank in it), and the subaddress,
bits 6 to 16. This is `modules[bank // 4][bank % 4][sub]` with `bank = r[2:5]`, `sub = r[6:16]`. -/
def mainRead (ms : List MemoryModule) (r : Register) : Py Int := do
  let bank ← r.getitem (.slice (some 2) (some 5))
  let sub ← r.getitem (.slice (some 6) (some 16))
  match ms[(bank / 4).toNat]? with
  | none => .error .indexError
  | some m => do
    let b ← m.bank (bank % 4)
    b.get sub

/-- `modules[bank // 4][bank % 4][sub] = v`; an exception is caught by the client. -/
def mainWrite (ms : List MemoryModule) (r : Register) (v : Int) : List MemoryModule :=
  match r.getitem (.slice (some 2) (some 5)), r.getitem (.slice (some 6) (some 16)) with
  | .ok bank, .ok sub => ms.modify (bank / 4).toNat fun m => m.run (bank % 4) (.write sub v)
  | _, _ => ms

theorem address_parts {r : Register} (hr : RegisterReach r) (h16 : r.width = 16) :
    r.getitem (.slice (some 2) (some 5)) = .ok (field r.value 11 4) ∧
      r.getitem (.slice (some 6) (some 16)) = .ok (field r.value 0 11) := by
  obtain ⟨-, hd⟩ := registerReach_shape hr
  have ho : r.data.order = .msbLeft := by rw [hd]
  have hw : r.data.width = 16 := by rw [hd]; exact h16
  have hnum : r.data.numbering = .msb1 := by rw [hd]
  constructor
  · exact BitField.getitem_denotes ho (by omega) (by omega) (by rw [hnum, hw]; simp [Denotes, weightExp, Numbering.code])
  · exact BitField.getitem_denotes ho (by omega) (by omega) (by rw [hnum, hw]; simp [Denotes, weightExp, Numbering.code])

theorem foldl_filter_append {k : Int} (ops : List (Int × MemOp)) (j : Int) (op : MemOp) (mem : Int → Int) :
    (((ops ++ [(j, op)]).filter (fun o => o.1 = k)).map Prod.snd).foldl (memStep 2048) mem =
      if j = k then memStep 2048 (((ops.filter (fun o => o.1 = k)).map Prod.snd).foldl (memStep 2048) mem) op
      else ((ops.filter (fun o => o.1 = k)).map Prod.snd).foldl (memStep 2048) mem := by
  by_cases h : j = k <;> simp [List.filter_append, h]

/-- What the modules hold, as one array. -/
def Holds (m0 : MemoryModule) (ms : List MemoryModule) (mem : Int → Int) : Prop :=
  ms.length = 4 ∧ ∀ (j : Nat) (m : MemoryModule), ms[j]? = some m → ∃ ops, m = modRun m0 ops ∧
    ∀ k a, 0 ≤ k ∧ k < 4 → 0 ≤ a ∧ a < 2048 →
      ((ops.filter (fun op => op.1 = k)).map Prod.snd).foldl (memStep 2048) (fun _ => 0) a =
        mem (j * 8192 + k * 2048 + a)

/-- C207: after any history of writes by addresses in registers, the word at the address in a register
is the last 48-bit value written to this address, whatever the signs of the registers; 0 if there is
none. -/
theorem C207_flat : ∃ m0, MemoryModule.init false = .ok m0 ∧
    ∀ (ops : List (Register × Int)) (r : Register),
      (∀ op ∈ ops, RegisterReach op.1 ∧ op.1.width = 16) → RegisterReach r → r.width = 16 →
      mainRead (ops.foldl (fun ms op => mainWrite ms op.1 op.2) (List.replicate 4 m0)) r =
        .ok (ops.foldl (fun (mem : Int → Int) op => if Fits 48 op.2 then
            fun x => if x = op.1.value % 32768 then op.2 else mem x else mem)
          (fun _ => 0) (r.value % 32768)) := by
  obtain ⟨m0, h0, -, -, hm⟩ := C35_module false
  refine ⟨m0, h0, ?_⟩
  intro ops r hops hr h16
  have key : ∀ (ops : List (Register × Int)) (ms : List MemoryModule) (mem : Int → Int),
      (∀ op ∈ ops, RegisterReach op.1 ∧ op.1.width = 16) → Holds m0 ms mem →
      Holds m0 (ops.foldl (fun ms op => mainWrite ms op.1 op.2) ms)
        (ops.foldl (fun (mem : Int → Int) op => if Fits 48 op.2 then
            fun x => if x = op.1.value % 32768 then op.2 else mem x else mem) mem) := by
    intro ops
    induction ops with
    | nil => intro ms mem _ h; exact h
    | cons op ops ih =>
      intro ms mem hops h
      refine ih _ _ (fun o ho => hops o (by simp [ho])) ?_
      obtain ⟨e1, e2⟩ := address_parts (hops op (by simp)).1 (hops op (by simp)).2
      simp only [mainWrite, e1, e2]
      refine ⟨by rw [List.length_modify]; exact h.1, ?_⟩
      intro j m hj
      rw [List.getElem?_modify] at hj
      cases hmj : ms[j]? with
      | none => rw [hmj] at hj; simp at hj
      | some m' =>
        obtain ⟨os, rfl, ho⟩ := h.2 j m' hmj
        have hj4 : j < 4 := by
          have := (List.getElem?_eq_some_iff.1 hmj).1
          rw [h.1] at this
          exact this
        rw [hmj] at hj
        simp only [Functor.map, Option.map_some, Option.some.injEq] at hj
        have hb : Fits 4 (field op.1.value 11 4) := by unfold Fits field; omega
        by_cases hjb : (field op.1.value 11 4 / 4).toNat = j
        · rw [if_pos hjb] at hj
          refine ⟨os ++ [(field op.1.value 11 4 % 4, .write (field op.1.value 0 11) op.2)], ?_, ?_⟩
          · rw [← hj]
            simp [modRun]
          · intro k a hk ha
            rw [foldl_filter_append]
            have := ho k a hk ha
            by_cases hkk : field op.1.value 11 4 % 4 = k
            · rw [if_pos hkk]
              simp only [memStep]
              by_cases hf : Fits 48 op.2
              · rw [if_pos hf, ← this]
                have : (a = field op.1.value 0 11) ↔
                    (j : Int) * 8192 + k * 2048 + a = op.1.value % 32768 := by
                  unfold Fits field at *
                  omega
                by_cases ha2 : a = field op.1.value 0 11
                · rw [if_pos ⟨ha2, by omega, hf⟩, if_pos (this.1 ha2)]
                · rw [if_neg (fun h => ha2 h.1), if_neg (fun h => ha2 (this.2 h))]
              · rw [if_neg (fun h => hf h.2.2), if_neg hf, ← this]
            · rw [if_neg hkk, this]
              by_cases hf : Fits 48 op.2
              · rw [if_pos hf, if_neg]
                unfold Fits field at *
                omega
              · rw [if_neg hf]
        · rw [if_neg hjb] at hj
          refine ⟨os, hj.symm, fun k a hk ha => ?_⟩
          rw [ho k a hk ha]
          by_cases hf : Fits 48 op.2
          · rw [if_pos hf, if_neg]
            unfold Fits field at *
            omega
          · rw [if_neg hf]
  have hstart : Holds m0 (List.replicate 4 m0) (fun _ => 0) := by
    refine ⟨by simp, fun j m hj => ⟨[], ?_, fun _ _ _ _ => rfl⟩⟩
    exact List.eq_of_mem_replicate (List.mem_of_getElem? hj)
  have hend := key ops _ _ hops hstart
  generalize hms : ops.foldl (fun ms op => mainWrite ms op.1 op.2) (List.replicate 4 m0) = ms at hend ⊢
  generalize ops.foldl (fun (mem : Int → Int) op => if Fits 48 op.2 then
    fun x => if x = op.1.value % 32768 then op.2 else mem x else mem) (fun _ => 0) = mem at hend ⊢
  obtain ⟨e1, e2⟩ := address_parts hr h16
  simp only [mainRead, e1, e2, py_bind_ok]
  have hb : Fits 4 (field r.value 11 4) := by unfold Fits field; omega
  have hs : Fits 11 (field r.value 0 11) := by unfold Fits field; omega
  unfold Fits at hb hs
  have hlt : (field r.value 11 4 / 4).toNat < ms.length := by rw [hend.1]; omega
  rw [List.getElem?_eq_getElem hlt]
  obtain ⟨os, hm', ho⟩ := hend.2 _ _ (List.getElem?_eq_getElem hlt)
  obtain ⟨b, hb1, hb2⟩ := (hm os (field r.value 11 4 % 4) (field r.value 0 11)).1
    ⟨by omega, by simp; omega⟩ ⟨by omega, by omega⟩
  simp only [hm', hb1, py_bind_ok]
  rw [hb2, ho _ _ ⟨by omega, by omega⟩ ⟨by omega, by omega⟩]
  congr 2
  unfold field at *
  omega

/-- C207, the control memory: an address of 8 bits is a group indicator and a subaddress (Figure IV-2).
After any writes by such addresses, `registers[x // 32][x % 32]` holds the last value that fits its width
written to `x`; 0 if there is none. -/
theorem C207_special (w : Int) (hw : w = 16 ∨ w = 24) : ∃ s0, Registers.init w = .ok s0 ∧
    ∀ (ops : List (Int × Int)) (x : Int), (∀ op ∈ ops, 0 ≤ op.1 ∧ op.1 < 256) → 0 ≤ x → x < 256 →
      ∃ r, ((ops.map fun op => RegOp.write (.num (op.1 / 32)) (.num (op.1 % 32)) op.2).foldl RegOp.run
          s0).reg (.num (x / 32)) (.num (x % 32)) = .ok r ∧
        r.value = ops.foldl (fun (mem : Int → Int) op => if Fits w.toNat op.2 then
            fun y => if y = op.1 then op.2 else mem y else mem) (fun _ => 0) x := by
  obtain ⟨s0, h0, h⟩ := C24_last_write w hw
  refine ⟨s0, h0, fun ops x hops hx0 hx1 => ?_⟩
  have hidx : ∀ y : Int, 0 ≤ y → y < 256 → groupIndex (.num (y / 32)) = some (y / 32).toNat ∧
      regIndex (.num (y % 32)) = some (y % 32).toNat := fun y h0 h1 => by
    simp only [groupIndex, regIndex]
    rw [if_pos (by omega), if_pos (by omega)]
    exact ⟨rfl, rfl⟩
  obtain ⟨r, h1, h2, -⟩ := (h (ops.map fun op => RegOp.write (.num (op.1 / 32)) (.num (op.1 % 32)) op.2)
    (fun op hop => by
      obtain ⟨o, -, rfl⟩ := List.mem_map.1 hop
      trivial) (.num (x / 32)) (.num (x % 32))).1 _ _ (hidx x hx0 hx1).1 (hidx x hx0 hx1).2
  refine ⟨r, h1, h2.trans ?_⟩
  have key : ∀ (ops : List (Int × Int)), (∀ op ∈ ops, 0 ≤ op.1 ∧ op.1 < 256) →
      ∀ (m : RegMap) (mem : Int → Int), (∀ y, 0 ≤ y → y < 256 → m (y / 32).toNat (y % 32).toNat = mem y) →
      ∀ y, 0 ≤ y → y < 256 →
      (ops.map fun op => RegOp.write (.num (op.1 / 32)) (.num (op.1 % 32)) op.2).foldl (regStep w.toNat) m
        (y / 32).toNat (y % 32).toNat = ops.foldl (fun (mem : Int → Int) op => if Fits w.toNat op.2 then
          fun y => if y = op.1 then op.2 else mem y else mem) mem y := by
    intro ops
    induction ops with
    | nil => intro _ m mem h; exact h
    | cons op ops ih =>
      intro hops m mem hm
      refine ih (fun o ho => hops o (by simp [ho])) _ _ ?_
      intro y hy0 hy1
      obtain ⟨g1, g2⟩ := hidx op.1 (hops op (by simp)).1 (hops op (by simp)).2
      simp only [regStep, regUpdate, g1, g2]
      have hop := hops op (by simp)
      have e : ((y / 32).toNat = (op.1 / 32).toNat ∧ (y % 32).toNat = (op.1 % 32).toNat) ↔ y = op.1 := by
        omega
      by_cases hy : y = op.1
      · rw [if_pos (e.2 hy), hm y hy0 hy1]
        by_cases hf : Fits w.toNat op.2
        · rw [if_pos hf, if_pos hf, if_pos hy]
        · rw [if_neg hf, if_neg hf]
      · rw [if_neg (fun h => hy (e.1 h)), hm y hy0 hy1]
        by_cases hf : Fits w.toNat op.2
        · rw [if_pos hf, if_neg hy]
        · rw [if_neg hf]
  exact key ops hops _ _ (fun _ _ _ => rfl) x hx0 hx1

/-! ### Examples -/

/-- A register with an address, as the constructor makes it. -/
theorem reg16 (v : Int) (hv : Fits 16 v) :
    RegisterReach ⟨⟨16, v, .msb1, .msbLeft⟩, none, 16⟩ := by
  refine .init (data := v) (name := none) (width := 16) ?_
  rw [register_init, if_pos ⟨.inl rfl, hv, .inl rfl⟩]
  rfl

/-- Written with the sign, read without it; a write to the same subaddress of another bank, and one of
a number of 49 bits, change nothing. -/
example : ∃ m0, MemoryModule.init false = .ok m0 ∧
    mainRead ([((⟨⟨16, 0o105001, .msb1, .msbLeft⟩, none, 16⟩ : Register), (77 : Int)),
      (⟨⟨16, 0o055001, .msb1, .msbLeft⟩, none, 16⟩, 99), (⟨⟨16, 0o005001, .msb1, .msbLeft⟩, none, 16⟩, 2 ^ 48)].foldl
        (fun ms op => mainWrite ms op.1 op.2) (List.replicate 4 m0))
      ⟨⟨16, 0o005001, .msb1, .msbLeft⟩, none, 16⟩ = .ok 77 := by
  obtain ⟨m0, h0, h⟩ := C207_flat
  refine ⟨m0, h0, ?_⟩
  rw [h _ _ _ (reg16 _ (by decide)) rfl]
  · decide +kernel
  · intro op hop
    simp only [List.mem_cons, List.not_mem_nil, or_false] at hop
    rcases hop with rfl | rfl | rfl <;> exact ⟨reg16 _ (by decide), rfl⟩

end H800
