import Verif.Lemmas.Messages
import Verif.Lemmas.Dict
import Verif.Props.Registers

/-!
C185: what the exceptions of registers say.
-/

namespace H800
open Spec

theorem known_names : REGISTER_NAMES = regNames ++ aliasNames := by decide

/-- C185: the message of a refused register names something that is wrong with its arguments. -/
theorem C185_new {data : Int} {name : Option Str} {width : Int} {t : Str}
    (h : Register.initText data name width = some t) : NewRegFault data name width t := by
  unfold Register.initText at h
  by_cases h0 : width < 0
  · rw [if_pos h0] at h; cases h
    exact .value (fun W hW => by omega) (pyStr_shortest _)
  · rw [if_neg h0] at h
    by_cases h1 : data < 0 ∨ data > 2 ^ width.toNat - 1
    · rw [if_pos h1] at h; cases h
      refine .value (fun W hW hf => ?_) (pyStr_shortest _)
      subst hW
      exact (fitsW _ _).1 hf h1
    · rw [if_neg h1] at h
      by_cases h2 : name.getD [] ≠ [] ∧ name.getD [] ∉ REGISTER_NAMES
      · rw [if_pos h2] at h; cases h
        cases name with
        | none => exact absurd rfl h2.1
        | some n =>
          rw [known_names] at h2
          simp only [Option.getD_some, List.mem_append, not_or] at h2
          exact .name rfl h2.1 h2.2.1 h2.2.2
      · rw [if_neg h2] at h
        by_cases h3 : width ≠ 16 ∧ width ≠ 24
        · rw [if_pos h3] at h; cases h
          exact .width h3.1 h3.2 (pyStr_shortest _)
        · rw [if_neg h3] at h; cases h

theorem register_tied (data : Int) (name : Option Str) (width : Int) :
    (∃ r, Register.init data name width = .ok r ∧ Register.initText data name width = none) ∨
    (Register.init data name width = .error .valueError ∧
      ∃ t, Register.initText data name width = some t) := by
  by_cases h : ∃ r, Register.init data name width = .ok r
  · obtain ⟨r, hr⟩ := h
    refine Or.inl ⟨r, hr, ?_⟩
    unfold Register.init at hr
    unfold Register.initText
    by_cases h0 : width < 0
    · rw [if_pos h0] at hr; cases hr
    · rw [if_neg h0] at hr ⊢
      by_cases h1 : data < 0 ∨ data > 2 ^ width.toNat - 1
      · rw [if_pos h1] at hr; cases hr
      · rw [if_neg h1] at hr ⊢
        by_cases h2 : name.getD [] ≠ [] ∧ name.getD [] ∉ REGISTER_NAMES
        · rw [if_pos h2] at hr; cases hr
        · rw [if_neg h2] at hr ⊢
          by_cases h3 : width ≠ 16 ∧ width ≠ 24
          · rw [if_pos h3] at hr; cases hr
          · rw [if_neg h3]
  · have he : Register.init data name width = .error .valueError := by
      cases hr : Register.init data name width with
      | ok r => exact absurd ⟨r, hr⟩ h
      | error e => rw [(C20_register_init data name width).2.2 e hr]
    refine Or.inr ⟨he, ?_⟩
    rw [(C20_register_init data name width).1] at h
    unfold Register.initText
    by_cases h0 : width < 0
    · rw [if_pos h0]; exact ⟨_, rfl⟩
    · rw [if_neg h0]
      by_cases h1 : data < 0 ∨ data > 2 ^ width.toNat - 1
      · rw [if_pos h1]; exact ⟨_, rfl⟩
      · rw [if_neg h1]
        by_cases h2 : name.getD [] ≠ [] ∧ name.getD [] ∉ REGISTER_NAMES
        · rw [if_pos h2]; exact ⟨_, rfl⟩
        · rw [if_neg h2]
          by_cases h3 : width ≠ 16 ∧ width ≠ 24
          · rw [if_pos h3]; exact ⟨_, rfl⟩
          · exfalso
            apply h
            refine ⟨by omega, (fitsW _ _).2 h1, ?_⟩
            rw [known_names] at h2
            cases name with
            | none => exact Or.inl rfl
            | some n =>
              by_cases hn : n = []
              · exact Or.inr (Or.inl (by rw [hn]))
              · refine Or.inr (Or.inr ⟨n, ?_, rfl⟩)
                by_contra hc
                exact h2 ⟨hn, hc⟩

/-- C185: a register is made exactly if nothing is wrong with the arguments; otherwise ValueError is
raised, with a message. -/
theorem C185_new_raise (data : Int) (name : Option Str) (width : Int) :
    ((∃ r, Register.init data name width = .ok r) ↔ ∀ t, ¬ NewRegFault data name width t) ∧
    (Register.init data name width = .error .valueError ↔
      ∃ t, Register.initText data name width = some t) := by
  constructor
  · constructor
    · intro h t ht
      obtain ⟨h1, h2, h3⟩ := (C20_register_init data name width).1.1 h
      cases ht with
      | value hv _ =>
        refine hv width.toNat ?_ h2
        omega
      | name hn he h4 h5 =>
        subst hn
        rcases h3 with h3 | h3 | ⟨s, hs, h3⟩
        · cases h3
        · cases h3; exact he rfl
        · cases h3
          rcases List.mem_append.1 hs with hs | hs
          · exact h4 hs
          · exact h5 hs
      | width h4 h5 _ => omega
    · intro h
      rcases register_tied data name width with ⟨r, hr, _⟩ | ⟨_, t, ht⟩
      · exact ⟨r, hr⟩
      · exact absurd (C185_new ht) (h t)
  · rcases register_tied data name width with ⟨r, hr, hn⟩ | ⟨he, ht⟩
    · rw [hr, hn]; simp
    · exact ⟨fun _ => ht, fun _ => he⟩

/-- C185: the message of a refused new value of any register, whatever was done to it before. -/
theorem C185_set {r : Register} (hr : RegisterReach r) (v : Int) :
    ((r.setValue v).2 = .error .valueError ↔ ∃ t, r.setValueText v = some t) ∧
    ∀ t, r.setValueText v = some t → ¬ Fits r.width v ∧ ∃ w, Shortest r.width w ∧
      t = py "Invalid value for " ++ w ++ py "-bit register!" := by
  obtain ⟨hw, hd⟩ := registerReach_shape hr
  have hC := C20_register_setValue r hr v
  by_cases h : Fits r.width v
  · have ht : r.setValueText v = none := by
      unfold Register.setValueText
      rw [if_neg ((fitsW _ _).1 h), hd]
      have hs : (BitField.mk r.width r.value .msb1 .msbLeft).Span 1 r.width 0 r.width := by
        refine ⟨by omega, by simp, ?_⟩
        simp [BitField.wt, weightExp, Numbering.code]
      rw [BitField.setSliceText_span hs, if_pos (by unfold Fits at h; omega)]
    rw [(hC.1 h).1, ht]
    exact ⟨by simp, nofun⟩
  · have ht : r.setValueText v = some (Register.valueText r.width) := by
      unfold Register.setValueText
      rw [if_pos (by rw [fitsW] at h; exact not_not.1 h)]
    rw [hC.2 h, ht]
    refine ⟨⟨fun _ => ⟨_, rfl⟩, fun _ => rfl⟩, ?_⟩
    rintro t ⟨⟩
    exact ⟨h, _, pyStr_shortest _, rfl⟩

/-- C185: an unknown name or number is refused with a message that names it. -/
theorem C185_lookup (n : Int) (s : Str) :
    (registerName n = .error .valueError ↔ ∃ t, registerNameText n = some t) ∧
    (registerAlias n = .error .valueError ↔ ∃ t, registerAliasText n = some t) ∧
    (registerNumber s = .error .valueError ↔ ∃ t, registerNumberText s = some t) ∧
    (∀ t, registerNameText n = some t ∨ registerAliasText n = some t →
      ¬ (0 ≤ n ∧ n < 32) ∧ ∃ w, Shortest n w ∧ t = py "Invalid register number " ++ w ++ py "!") ∧
    ∀ t, registerNumberText s = some t →
      s ∉ regNames ∧ s ∉ aliasNames ∧ t = py "Invalid register name " ++ s ++ py "!" := by
  have hnone : nameOf n REGISTERS = none → ¬ (0 ≤ n ∧ n < 32) := by
    intro h hn
    have : ∀ k < 32, nameOf ((k : Nat) : Int) REGISTERS ≠ none := by decide +kernel
    refine this n.toNat (by omega) ?_
    rw [show ((n.toNat : Nat) : Int) = n by omega]
    exact h
  refine ⟨?_, ?_, ?_, ?_, ?_⟩
  · unfold registerName registerNameText
    cases nameOf n REGISTERS <;> simp
  · unfold registerAlias registerAliasText
    cases nameOf n ALIASES <;> cases nameOf n REGISTERS <;> simp
  · unfold registerNumber registerNumberText
    cases dget REGISTERS s <;> cases dget ALIASES s <;> simp
  · intro t ht
    have : nameOf n REGISTERS = none ∧ t = py "Invalid register number " ++ pyStr n ++ py "!" := by
      rcases ht with ht | ht
      · unfold registerNameText at ht
        split at ht
        · cases ht
        · rename_i h; cases ht; exact ⟨h, rfl⟩
      · unfold registerAliasText at ht
        split at ht
        · cases ht
        · split at ht
          · cases ht
          · rename_i h; cases ht; exact ⟨h, rfl⟩
    exact ⟨hnone this.1, _, pyStr_shortest _, this.2⟩
  · intro t ht
    unfold registerNumberText at ht
    split at ht
    · cases ht
    · rename_i h1
      split at ht
      · cases ht
      · rename_i h2
        cases ht
        exact ⟨dget_none.1 h1, dget_none.1 h2, rfl⟩

theorem group_text (k : GKey) (t : Str) :
    RegisterGroup.getitemText k = some t → GroupKeyFault regNames k t := by
  intro h
  match k with
  | .slice => cases h; exact .slice
  | .name s =>
    simp only [RegisterGroup.getitemText] at h
    split at h
    · rename_i h1; cases h
      exact .name (dget_none.1 h1)
    · cases h
  | .num n =>
    simp only [RegisterGroup.getitemText] at h
    by_cases h1 : n < 0 ∨ n ≥ REGISTERS.length
    · rw [if_pos h1] at h; cases h
      refine .num ?_ (pyStr_shortest _)
      have : REGISTERS.length = 32 := rfl
      omega
    · rw [if_neg h1] at h; cases h

/-- C185 as stated: the message for a name is given only if no register goes by it. -/
def C185_statement : Prop := ∀ (k : GKey) (t : Str), RegisterGroup.getitemText k = some t →
  GroupKeyFault (regNames ++ aliasNames) k t

/-- C185 is false: a group calls the name RAC of a register invalid. -/
theorem C185_refuted : ¬ C185_statement := by
  intro h
  have := h (.name (py "RAC")) _ rfl
  cases this with
  | name hn => exact hn (by decide)

/-- C185: the message of a refused subscript of a group. Partial: a name is called invalid unless it is
one of the 32 names that are no alias. -/
theorem C185_group_partial (g : RegisterGroup) (k : GKey) :
    (g.getitem k = .error .valueError ↔ ∃ t, RegisterGroup.getitemText k = some t) ∧
    ((∃ t, RegisterGroup.getitemText k = some t) ↔ ∃ t, GroupKeyFault regNames k t) ∧
    ∀ t, RegisterGroup.getitemText k = some t → GroupKeyFault regNames k t := by
  have hd : ∀ n, dgetE g.regs (.num n) ≠ .error .valueError := by
    intro n h
    unfold dgetE at h
    split at h <;> cases h
  refine ⟨?_, ⟨fun ⟨t, ht⟩ => ⟨t, group_text k t ht⟩, ?_⟩, group_text k⟩
  · match k with
    | .slice => simp [RegisterGroup.getitem, RegisterGroup.getitemText]
    | .name s =>
      simp only [RegisterGroup.getitem, RegisterGroup.getitemText]
      cases dget REGISTERS s with
      | none => simp
      | some n => simp [hd]
    | .num n =>
      simp only [RegisterGroup.getitem, RegisterGroup.getitemText]
      by_cases h1 : n < 0 ∨ n ≥ REGISTERS.length
      · rw [if_pos h1, if_pos h1]; simp
      · rw [if_neg h1, if_neg h1]; simp [hd]
  · rintro ⟨t, ht⟩
    cases ht with
    | slice => exact ⟨_, rfl⟩
    | @name s hn =>
      have : dget REGISTERS s = none := dget_none.2 hn
      simp [RegisterGroup.getitemText, this]
    | @num n w hn _ =>
      have : REGISTERS.length = 32 := rfl
      simp only [RegisterGroup.getitemText]
      rw [if_pos (by omega)]
      exact ⟨_, rfl⟩

/-- C185: nothing but a slice is refused with a message when a register of a group is replaced. -/
theorem C185_group_set (g : RegisterGroup) (k : GKey) (r : Nat) :
    ((g.setitem k r).2 = .error .valueError ↔ ∃ t, RegisterGroup.setitemText k = some t) ∧
    ∀ t, RegisterGroup.setitemText k = some t ↔ k = .slice ∧ t = py "Slices not supported!" := by
  cases k with
  | slice =>
    refine ⟨by simp [RegisterGroup.setitem, RegisterGroup.setitemText], fun t => ?_⟩
    simp only [RegisterGroup.setitemText, true_and]
    constructor
    · rintro ⟨⟩; rfl
    · rintro rfl; rfl
  | name s => simp [RegisterGroup.setitem, RegisterGroup.setitemText]
  | num n => simp [RegisterGroup.setitem, RegisterGroup.setitemText]

/-- C185: the message of a refused subscript of a register file. -/
theorem C185_file (s : Registers) (shown : Str) (k : FKey) :
    (s.getitem k = .error .valueError ↔ ∃ t, Registers.getitemText shown k = some t) ∧
    ((∃ t, Registers.getitemText shown k = some t) ↔ ∃ t, FileKeyFault shown k t) ∧
    ∀ t, Registers.getitemText shown k = some t → FileKeyFault shown k t := by
  have hd : ∀ n, dgetE s.slots n ≠ .error .valueError := by
    intro n h
    unfold dgetE at h
    split at h <;> cases h
  have hN : (Registers.NUM_GROUPS : Int) = 8 := rfl
  have ht : ∀ t, Registers.getitemText shown k = some t → FileKeyFault shown k t := by
    intro t h
    match k with
    | .slice => cases h; exact .slice
    | .other => cases h; exact .other
    | .num n =>
      simp only [Registers.getitemText] at h
      by_cases h1 : n < 0 ∨ n ≥ Registers.NUM_GROUPS
      · rw [if_pos h1] at h; cases h
        exact .num (by omega) (pyStr_shortest _)
      · rw [if_neg h1] at h; cases h
  refine ⟨?_, ⟨fun ⟨t, h⟩ => ⟨t, ht t h⟩, ?_⟩, ht⟩
  · match k with
    | .slice => simp [Registers.getitem, Registers.getitemText]
    | .other => simp [Registers.getitem, Registers.getitemText]
    | .num n =>
      simp only [Registers.getitem, Registers.getitemText]
      by_cases h1 : n < 0 ∨ n ≥ Registers.NUM_GROUPS
      · rw [if_pos h1, if_pos h1]; simp
      · rw [if_neg h1, if_neg h1]; simp [hd]
  · rintro ⟨t, h⟩
    cases h with
    | slice => exact ⟨_, rfl⟩
    | other => exact ⟨_, rfl⟩
    | @num n w hn _ =>
      simp only [Registers.getitemText]
      rw [if_pos (by omega)]
      exact ⟨_, rfl⟩

/-- C185: the message of a refused replacement of a group; no number is refused. -/
theorem C185_file_set (s : Registers) (shown : Str) (k : FKey) (g : Nat) :
    ((s.setitem k g).2 = .error .valueError ↔ ∃ t, Registers.setitemText shown k = some t) ∧
    ∀ t, Registers.setitemText shown k = some t ↔ FileKeyFault shown k t ∧ ∀ n, k ≠ .num n := by
  cases k with
  | slice =>
    refine ⟨by simp [Registers.setitem, Registers.setitemText], fun t => ⟨?_, ?_⟩⟩
    · rintro ⟨⟩; exact ⟨.slice, nofun⟩
    · rintro ⟨h, _⟩; cases h; rfl
  | other =>
    refine ⟨by simp [Registers.setitem, Registers.setitemText], fun t => ⟨?_, ?_⟩⟩
    · rintro ⟨⟩; exact ⟨.other, nofun⟩
    · rintro ⟨h, _⟩; cases h; rfl
  | num n => simp [Registers.setitem, Registers.setitemText]

theorem groupLoop_tied (width : Int) (d : Dict Str Int) (heap : List Register) (acc : Dict GKey Nat) :
    (∃ r, RegisterGroup.initLoop width d heap acc = .ok r ∧
      (d.findSome? fun (name, _) => Register.initText 0 (some name) width) = none) ∨
    (RegisterGroup.initLoop width d heap acc = .error .valueError ∧
      ∃ t, (d.findSome? fun (name, _) => Register.initText 0 (some name) width) = some t) := by
  induction d generalizing heap acc with
  | nil => exact Or.inl ⟨_, rfl, rfl⟩
  | cons p d ih =>
    obtain ⟨name, n⟩ := p
    simp only [RegisterGroup.initLoop, List.findSome?_cons]
    rcases register_tied 0 (some name) width with ⟨r, hr, ht⟩ | ⟨he, t, ht⟩
    · rw [hr, ht]
      exact ih _ _
    · rw [he, ht]
      exact Or.inr ⟨rfl, t, rfl⟩

theorem group_tied (heap : List Register) (width : Int) :
    (∃ r, RegisterGroup.init heap width = .ok r ∧ RegisterGroup.initText width = none) ∨
    (RegisterGroup.init heap width = .error .valueError ∧
      ∃ t, RegisterGroup.initText width = some t) := by
  unfold RegisterGroup.init RegisterGroup.initText
  rcases groupLoop_tied width REGISTERS heap [] with ⟨r, hr, ht⟩ | ⟨he, ht⟩
  · rw [hr]; exact Or.inl ⟨_, rfl, ht⟩
  · rw [he]; exact Or.inr ⟨rfl, ht⟩

theorem fileLoop_tied (width : Int) (ks : List Nat) (s : Registers) :
    (∃ r, Registers.initLoop width ks s = .ok r ∧
      (ks.findSome? fun _ => RegisterGroup.initText width) = none) ∨
    (Registers.initLoop width ks s = .error .valueError ∧
      ∃ t, (ks.findSome? fun _ => RegisterGroup.initText width) = some t) := by
  induction ks generalizing s with
  | nil => exact Or.inl ⟨_, rfl, rfl⟩
  | cons k ks ih =>
    simp only [Registers.initLoop, List.findSome?_cons]
    rcases group_tied s.heap width with ⟨r, hr, ht⟩ | ⟨he, t, ht⟩
    · rw [ht] at ih
      rw [hr, ht]
      exact ih _
    · rw [he, ht]
      exact Or.inr ⟨rfl, t, rfl⟩

theorem group_new_text {width : Int} {t : Str} (h : RegisterGroup.initText width = some t) :
    NewRegFault 0 none width t := by
  unfold RegisterGroup.initText at h
  obtain ⟨⟨name, n⟩, hm, ht⟩ := List.exists_of_findSome?_eq_some h
  have hn : name ∈ regNames := by
    have : name ∈ REGISTERS.map Prod.fst := List.mem_map.2 ⟨_, hm, rfl⟩
    exact this
  cases C185_new ht with
  | value a b => exact .value a b
  | name a b c _ => cases a; exact absurd hn c
  | width a b c => exact .width a b c

/-- C185: the messages of a refused group and of a refused file are those for a register, and only the
width can be wrong. -/
theorem C185_new_group (heap : List Register) (width : Int) :
    (RegisterGroup.init heap width = .error .valueError ↔
      ∃ t, RegisterGroup.initText width = some t) ∧
    (Registers.init width = .error .valueError ↔ ∃ t, Registers.initText width = some t) ∧
    (∀ t, RegisterGroup.initText width = some t ∨ Registers.initText width = some t →
      NewRegFault 0 none width t) ∧
    ((∃ s, Registers.init width = .ok s) ↔ ∀ t, ¬ NewRegFault 0 none width t) ∧
    ((∃ g, RegisterGroup.init heap width = .ok g) ↔ ∀ t, ¬ NewRegFault 0 none width t) := by
  have hft : ∀ t, Registers.initText width = some t → NewRegFault 0 none width t := by
    intro t h
    obtain ⟨_, _, ht⟩ := List.exists_of_findSome?_eq_some h
    exact group_new_text ht
  have hG := group_tied heap width
  have hF := fileLoop_tied width (List.range Registers.NUM_GROUPS)
    { heap := [], groups := [], slots := [], current := 0 }
  have hw : ∀ t, NewRegFault 0 none width t → ∃ u, RegisterGroup.initText width = some u := by
    intro t ht
    have h1 : ∃ u, NewRegFault 0 (some (py "AU1")) width u := by
      cases ht with
      | value a b => exact ⟨_, .value a b⟩
      | name a b c d => cases a
      | width a b c => exact ⟨_, .width a b c⟩
    obtain ⟨u, hu⟩ := h1
    rcases register_tied 0 (some (py "AU1")) width with ⟨r, hr, _⟩ | ⟨_, v, hv⟩
    · exact absurd hu ((C185_new_raise 0 (some (py "AU1")) width).1.1 ⟨r, hr⟩ u)
    · refine ⟨v, ?_⟩
      unfold RegisterGroup.initText REGISTERS
      rw [List.findSome?_cons]
      simp only
      rw [hv]
  refine ⟨?_, ?_, ?_, ?_, ?_⟩
  · rcases hG with ⟨r, hr, ht⟩ | ⟨he, ht⟩
    · rw [hr, ht]; simp
    · exact ⟨fun _ => ht, fun _ => he⟩
  · rcases hF with ⟨r, hr, ht⟩ | ⟨he, ht⟩
    · have h1 : Registers.init width = .ok r := hr
      have h2 : Registers.initText width = none := ht
      rw [h1, h2]; simp
    · exact ⟨fun _ => ht, fun _ => he⟩
  · rintro t (h | h)
    · exact group_new_text h
    · exact hft t h
  · constructor
    · rintro ⟨s, hs⟩ t ht
      obtain ⟨u, hu⟩ := hw t ht
      rcases hF with ⟨r, hr, hn⟩ | ⟨he, _⟩
      · have h8 : List.range Registers.NUM_GROUPS = 0 :: [1, 2, 3, 4, 5, 6, 7] := rfl
        rw [h8, List.findSome?_cons, hu] at hn
        cases hn
      · have h1 : Registers.init width = .error .valueError := he
        rw [hs] at h1; cases h1
    · intro h
      rcases hF with ⟨r, hr, _⟩ | ⟨_, t, ht⟩
      · exact ⟨r, hr⟩
      · exact absurd (hft t ht) (h t)
  · constructor
    · rintro ⟨g, hg⟩ t ht
      obtain ⟨u, hu⟩ := hw t ht
      rcases hG with ⟨r, hr, hn⟩ | ⟨he, _⟩
      · rw [hu] at hn; cases hn
      · rw [hg] at he; cases he
    · intro h
      rcases hG with ⟨r, hr, _⟩ | ⟨_, t, ht⟩
      · exact ⟨r, hr⟩
      · exact absurd (group_new_text ht) (h t)

example : Register.initText 65536 none 16 = some (py "Invalid value for 16-bit register!") ∧
    Register.initText 0 (some (py "Y1")) 16 = some (py "Invalid register name Y1!") ∧
    Register.initText 0 (some (py "RAC")) 16 = none ∧
    Register.initText 0 none 17 = some (py "Invalid register width 17, must be 16 or 24!") ∧
    Register.initText 0 none (-1) = some (py "Invalid value for -1-bit register!") ∧
    RegisterGroup.getitemText (.name (py "RAC")) = some (py "Invalid register name RAC!") ∧
    RegisterGroup.getitemText (.num 32) = some (py "Invalid register number 32!") ∧
    Registers.getitemText (py "x") (.num (-1)) = some (py "Invalid register group number -1!") ∧
    RegisterGroup.initText 8 = some (py "Invalid register width 8, must be 16 or 24!") := by
  decide +kernel

end H800
