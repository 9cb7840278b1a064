import Verif.Spec.FieldKeys
import Verif.Props.Keys

/-!
Property C228: a bit-field as a subscript.
-/

namespace H800

open Spec

/-- C228 as stated: a bit-field is as good a subscript, and a bound of a slice, as the int that is its
value. -/
def C228_statement : Prop := ∀ k : KeyF,
  (∀ m : MemoryBank, m.getF k = m.getF (intKey k) ∧ ∀ F v, m.setF F k v = m.setF F (intKey k) v) ∧
  (∀ m : MemoryModule, m.getF k = m.getF (intKey k)) ∧
  (∀ g : RegisterGroup, g.getF k = g.getF (intKey k)) ∧
  (∀ s : Registers, s.getF k = s.getF (intKey k) ∧ ∀ g, s.setF k g = s.setF (intKey k) g) ∧
  registerNameF k = registerNameF (intKey k) ∧ registerAliasF k = registerAliasF (intKey k) ∧
  ∀ F (b : BitField), b.getF F k = b.getF F (intKey k) ∧ ∀ v, b.setF F k v = b.setF F (intKey k) v

/-- C228 is false: `bank[f]` is a KeyError though `bank[f:g]` is a list of words, and `b[f]` and `b[f:g]`
of a bit-field are TypeErrors. -/
theorem C228_refuted : ¬ C228_statement ∧
    (⟨[⟨⟨48, 3, .msb1, .msbLeft⟩⟩, ⟨⟨48, 4, .msb1, .msbLeft⟩⟩], 0⟩ : MemoryBank).getF
      (.field ⟨8, 1, .lsb0, .lsbLeft⟩) = .error .keyError ∧
    (⟨[⟨⟨48, 3, .msb1, .msbLeft⟩⟩, ⟨⟨48, 4, .msb1, .msbLeft⟩⟩], 0⟩ : MemoryBank).getF
      (.slice (.field ⟨8, 1, .lsb0, .lsbLeft⟩) (.val (.int 2))) = .ok (.inr [4]) ∧
    (⟨8, 6, .lsb0, .lsbLeft⟩ : BitField).getF exactOps (.slice (.val (.int 1))
      (.field ⟨8, 2, .lsb0, .lsbLeft⟩)) = .error .typeError ∧
    (⟨8, 6, .lsb0, .lsbLeft⟩ : BitField).getF exactOps (.slice (.val (.int 1)) (.val (.int 2))) =
      .ok 2 := by
  refine ⟨fun hs => ?_, by decide +kernel, by decide +kernel, by decide +kernel, by decide +kernel⟩
  have := ((hs (.field ⟨8, 0, .lsb0, .lsbLeft⟩)).1 ⟨[⟨⟨48, 3, .msb1, .msbLeft⟩⟩], 0⟩).1
  revert this
  decide +kernel

/-- C228: with the subscripts of the other properties these are the functions of the other properties. -/
theorem C228_agrees :
    (∀ (m : MemoryBank) k, m.getF (.key k) = m.getK k) ∧
    (∀ F (m : MemoryBank) k v, m.setF F (.key k) v = m.setK F k v) ∧
    (∀ (m : MemoryModule) k, m.getF (.key k) = m.getK k) ∧
    (∀ (g : RegisterGroup) k, g.getF (.key k) = g.getK k) ∧
    (∀ (g : RegisterGroup) k r, g.setF (.key k) r = g.setK k r) ∧
    (∀ (s : Registers) k, s.getF (.key k) = s.getK k) ∧
    (∀ (s : Registers) k g, s.setF (.key k) g = s.setK k g) ∧
    (∀ k, registerNameF (.key k) = registerNameK k ∧ registerAliasF (.key k) = registerAliasK k) ∧
    (∀ F (b : BitField) n, b.getF F (.key (.int n)) = b.getIndexV F (.int n)) ∧
    (∀ F (b : BitField) s e, b.getF F (.key (.slice s e)) = b.getSliceV F s e ∧
      b.getF F (.slice (.val s) (.val e)) = b.getSliceV F s e) ∧
    (∀ F (b : BitField) n v, b.setF F (.key (.int n)) v = b.setitemV F (.idx (.int n)) v) ∧
    (∀ F (b : BitField) s e v, b.setF F (.key (.slice s e)) v = b.setitemV F (.slice s e) v ∧
      b.setF F (.slice (.val s) (.val e)) v = b.setitemV F (.slice s e) v) ∧
    ∀ F (b : BitField) x, b.getF F (.key (.float x)) = b.getIndexV F (.float x) ∧
      ∀ v, b.setF F (.key (.float x)) v = b.setitemV F (.idx (.float x)) v :=
  ⟨fun _ _ => rfl, fun _ _ _ _ => rfl, fun _ _ => rfl, fun _ _ => rfl, fun _ _ _ => rfl, fun _ _ => rfl,
    fun _ _ _ => rfl, fun _ => ⟨rfl, rfl⟩, fun _ _ _ => rfl, fun _ _ _ _ => ⟨rfl, rfl⟩,
    fun _ _ _ _ => rfl, fun _ _ _ _ _ => ⟨rfl, rfl⟩, fun _ _ _ => ⟨rfl, fun _ => rfl⟩⟩

/-- C228: as a bound of a slice of a memory bank or module a field is the int: the words or banks from the
one bound to the other are given, and all the words are set. -/
theorem C228_bounds_partial (s e : BoundF) :
    (∀ m : MemoryBank, m.getF (.slice s e) = m.getF (intKey (.slice s e)) ∧
      ∀ F v, m.setF F (.slice s e) v = m.setF F (intKey (.slice s e)) v) ∧
    (∀ m : MemoryModule, m.getF (.slice s e) = m.getF (intKey (.slice s e))) ∧
    (∀ f g, s = .field f → e = .field g →
      (∀ m : MemoryBank, m.getF (.slice s e) = (m.getSlice (some f.value) (some g.value)).map .inr ∧
        ∀ F v, m.setF F (.slice s e) (.int v) = m.setSlice (some f.value) (some g.value) v) ∧
      ∀ m : MemoryModule, m.getF (.slice s e) = (m.bankList (pyRange f.value g.value)).map .inr) := by
  have hb : ∀ x : BoundF, (intBound x).ranged = x.ranged := by rintro (_ | _) <;> rfl
  refine ⟨fun m => ⟨?_, fun F v => ?_⟩, fun m => ?_, ?_⟩
  · show m.getK _ = m.getK (.slice (intBound s).ranged (intBound e).ranged)
    rw [hb, hb]
  · show m.setK F (.slice s.ranged e.ranged) v = m.setK F (.slice (intBound s).ranged (intBound e).ranged) v
    rw [hb, hb]
  · show m.getK _ = m.getK (.slice (intBound s).ranged (intBound e).ranged)
    rw [hb, hb]
  · rintro f g rfl rfl
    refine ⟨fun m => ⟨C218_agrees.2.1 m (some f.value) (some g.value), fun F v => ?_⟩, fun m => ?_⟩
    · exact C218_agrees.2.2.2.1 F m (some f.value) (some g.value) v
    · exact C218_agrees.2.2.2.2.2.1 m f.value g.value

/-- C228: as a subscript by itself a field is none: a memory bank or module raises KeyError, a group of
registers TypeError (KeyError when a register is stored), the set of groups and the tables of names
ValueError. Nothing is changed, whatever the value of the field. -/
theorem C228_subscript_partial (f : BitField) :
    (∀ m : MemoryBank, m.getF (.field f) = .error .keyError ∧
      ∀ F v, m.setF F (.field f) v = (m, .error .keyError)) ∧
    (∀ m : MemoryModule, m.getF (.field f) = .error .keyError) ∧
    (∀ g : RegisterGroup, g.getF (.field f) = .error .typeError ∧
      ∀ r, g.setF (.field f) r = (g, .error .keyError)) ∧
    (∀ s : Registers, s.getF (.field f) = .error .valueError ∧
      ∀ g, s.setF (.field f) g = (s, .error .valueError)) ∧
    registerNameF (.field f) = .error .valueError ∧ registerAliasF (.field f) = .error .valueError :=
  ⟨fun _ => ⟨rfl, fun _ _ => rfl⟩, fun _ => rfl, fun _ => ⟨rfl, fun _ => rfl⟩,
    fun _ => ⟨rfl, fun _ => rfl⟩, rfl, rfl⟩

/-- An object that is no number is refused by the check of an index. -/
theorem checkIndexV_other (F : FloatOps) (b : BitField) (t : Bool) :
    b.checkIndexV F (.other t) = .error .typeError := by
  rcases b with ⟨w, v, n, o⟩
  cases o <;> cases n <;> rfl

/-- C228: a bit-field takes no string, no tuple and no other object for an index. -/
theorem C228_objects (F : FloatOps) (b : BitField) (k : PyKey) (v : PyVal)
    (hk : (∃ s, k = .str s) ∨ (∃ l h, k = .tuple l h) ∨ ∃ h, k = .object h) :
    b.getF F (.key k) = .error .typeError ∧ b.setF F (.key k) v = (b, .error .typeError) := by
  have hc := checkIndexV_other F b true
  have h : b.getIndexV F (.other true) = .error .typeError ∧
      b.setitemV F (.idx (.other true)) v = (b, .error .typeError) := by
    constructor
    · unfold BitField.getIndexV
      rw [hc]; rfl
    · unfold BitField.setitemV BitField.newIndexV
      dsimp only
      rw [hc]; rfl
  rcases hk with ⟨s, rfl⟩ | ⟨l, x, rfl⟩ | ⟨x, rfl⟩ <;> exact h

/-- The check of an index ends in no exceptions but these. -/
theorem checkIndexV_error (F : FloatOps) (b : BitField) (x : PyVal) :
    b.checkIndexV F x = .ok () ∨ b.checkIndexV F x = .error .valueError ∨
      b.checkIndexV F x = .error .typeError := by
  have hl : ∀ (r : PyVal) (n : Int), (∃ c, r.lt (.int n) = .ok c) ∨ r.lt (.int n) = .error .typeError := by
    rintro (_ | _ | _) n
    · exact Or.inl ⟨_, rfl⟩
    · exact Or.inl ⟨_, rfl⟩
    · exact Or.inr rfl
  have hg : ∀ (r : PyVal) (n : Int), (∃ c, r.ge (.int n) = .ok c) ∨ r.ge (.int n) = .error .typeError := by
    rintro (_ | _ | _) n
    · exact Or.inl ⟨_, rfl⟩
    · exact Or.inl ⟨_, rfl⟩
    · exact Or.inr rfl
  have hr : (∃ r, b.rindexV F x = .ok r) ∨ b.rindexV F x = .error .typeError := by
    rcases b with ⟨w, v, n, o⟩
    cases o <;> cases n <;> cases x <;> first | exact Or.inl ⟨_, rfl⟩ | exact Or.inr rfl
  unfold BitField.checkIndexV
  rcases hr with ⟨r, hr⟩ | hr
  · rw [hr]
    rcases hl r 0 with ⟨c, hc⟩ | hc
    · rcases hg r b.width with ⟨d, hd⟩ | hd
      · show (r.lt (.int 0) >>= _) = _ ∨ (r.lt (.int 0) >>= _) = _ ∨ (r.lt (.int 0) >>= _) = _
        rw [hc]
        cases c
        · show (r.ge (.int b.width) >>= _) = _ ∨ (r.ge (.int b.width) >>= _) = _ ∨
            (r.ge (.int b.width) >>= _) = _
          rw [hd]
          cases d
          · exact Or.inl rfl
          · exact Or.inr (Or.inl rfl)
        · exact Or.inr (Or.inl rfl)
      · show (r.lt (.int 0) >>= _) = _ ∨ (r.lt (.int 0) >>= _) = _ ∨ (r.lt (.int 0) >>= _) = _
        rw [hc]
        cases c
        · show (r.ge (.int b.width) >>= _) = _ ∨ (r.ge (.int b.width) >>= _) = _ ∨
            (r.ge (.int b.width) >>= _) = _
          rw [hd]
          exact Or.inr (Or.inr rfl)
        · exact Or.inr (Or.inl rfl)
    · show (r.lt (.int 0) >>= _) = _ ∨ (r.lt (.int 0) >>= _) = _ ∨ (r.lt (.int 0) >>= _) = _
      rw [hc]
      exact Or.inr (Or.inr rfl)
  · rw [hr]
    exact Or.inr (Or.inr rfl)

/-- C228: a bit-field takes no field, not itself either, for an index or for a bound of a slice, and does not
change: TypeError, or ValueError if the first bound is a number that is no index. -/
theorem C228_field_partial (F : FloatOps) (b f : BitField) (v : PyVal) :
    b.getF F (.field f) = .error .typeError ∧ b.setF F (.field f) v = (b, .error .typeError) ∧
    (∀ e, b.getF F (.slice (.field f) e) = .error .typeError ∧
      b.setF F (.slice (.field f) e) v = (b, .error .typeError)) ∧
    ∀ s, ∃ e, (e = .typeError ∨ e = .valueError ∧ b.getF F (.slice s s) = .error .valueError) ∧
      b.getF F (.slice s (.field f)) = .error e ∧ b.setF F (.slice s (.field f)) v = (b, .error e) := by
  have hc := checkIndexV_other F b (f.width != 0)
  refine ⟨?_, ?_, fun e => ⟨?_, ?_⟩, fun s => ?_⟩
  · show b.getIndexV F (.other (f.width != 0)) = _
    unfold BitField.getIndexV
    rw [hc]; rfl
  · show b.setitemV F (.idx (.other (f.width != 0))) v = _
    unfold BitField.setitemV BitField.newIndexV
    dsimp only
    rw [hc]; rfl
  · show b.getSliceV F (.other (f.width != 0)) _ = _
    unfold BitField.getSliceV BitField.checkRangeV
    rw [hc]; rfl
  · show b.setitemV F (.slice (.other (f.width != 0)) _) v = _
    unfold BitField.setitemV BitField.newSliceV BitField.checkRangeV
    dsimp only
    rw [hc]; rfl
  · have hget : ∀ x y err, b.checkRangeV F x y = .error err → b.getSliceV F x y = .error err := by
      intro x y err h
      unfold BitField.getSliceV
      rw [h]; rfl
    have hset : ∀ x y err, b.checkRangeV F x y = .error err →
        b.setitemV F (.slice x y) v = (b, .error err) := by
      intro x y err h
      unfold BitField.setitemV BitField.newSliceV
      dsimp only
      rw [h]; rfl
    have hfirst : ∀ y err, b.checkIndexV F s.plain = .error err →
        b.checkRangeV F s.plain y = .error err := by
      intro y err h
      unfold BitField.checkRangeV
      rw [h]; rfl
    rcases checkIndexV_error F b s.plain with h | h | h
    · have : b.checkRangeV F s.plain (.other (f.width != 0)) = .error .typeError := by
        unfold BitField.checkRangeV
        rw [h]
        show (b.checkIndexV F (.other (f.width != 0)) >>= _) = _
        rw [hc]; rfl
      exact ⟨_, Or.inl rfl, hget _ _ _ this, hset _ _ _ this⟩
    · exact ⟨_, Or.inr ⟨rfl, hget _ _ _ (hfirst _ _ h)⟩, hget _ _ _ (hfirst _ _ h),
        hset _ _ _ (hfirst _ _ h)⟩
    · exact ⟨_, Or.inl rfl, hget _ _ _ (hfirst _ _ h), hset _ _ _ (hfirst _ _ h)⟩

/-! Cases: bounds that are a field and an int, a field with a negative value, a bound out of range before a
field. -/

example : (⟨[⟨⟨48, 3, .msb1, .msbLeft⟩⟩, ⟨⟨48, 4, .msb1, .msbLeft⟩⟩], 0⟩ : MemoryBank).setF exactOps
    (.slice (.val (.int 0)) (.field ⟨8, 2, .lsb0, .lsbLeft⟩)) (.int 9) =
    (⟨[⟨⟨48, 9, .msb1, .msbLeft⟩⟩, ⟨⟨48, 9, .msb1, .msbLeft⟩⟩], 0⟩, .ok ()) ∧
    (⟨[⟨⟨48, 3, .msb1, .msbLeft⟩⟩], 0⟩ : MemoryBank).getF
      (.slice (.field ⟨8, -1, .lsb0, .lsbLeft⟩) (.val (.int 1))) = .error .keyError ∧
    (⟨[⟨⟨48, 3, .msb1, .msbLeft⟩⟩], 0⟩ : MemoryBank).getF
      (.slice (.field ⟨8, 0, .lsb0, .lsbLeft⟩) (.val (.float (.fin 1)))) = .error .typeError := by
  refine ⟨?_, ?_, ?_⟩ <;> decide +kernel

example : (⟨8, 6, .lsb0, .lsbLeft⟩ : BitField).getF exactOps
    (.slice (.val (.int 8)) (.field ⟨8, 2, .lsb0, .lsbLeft⟩)) = .error .valueError ∧
    (⟨8, 6, .lsb0, .lsbLeft⟩ : BitField).getF exactOps
      (.slice (.val (.float (.fin 1))) (.field ⟨8, 2, .lsb0, .lsbLeft⟩)) = .error .typeError ∧
    registerNameF (.field ⟨8, 2, .lsb0, .lsbLeft⟩) = .error .valueError ∧
    registerNameF (intKey (.field ⟨8, 2, .lsb0, .lsbLeft⟩)) = .ok (py "SC") := by
  refine ⟨?_, ?_, ?_, ?_⟩ <;> decide +kernel

end H800
