import Verif.Props.Registers
import Verif.Spec.Sharing

/-!
Property C117: assignments between groups share the group.
-/

namespace H800

open Spec

/-- The references of the file are those of `ref`. -/
def GoodSlots (sl : Dict Int Nat) (ref : Nat → Nat) : Prop :=
  ∀ n : Nat, n < 8 → dget sl (n : Int) = some (ref n) ∧ ref n < 8

/-- The file with other references. -/
def reslot (s : Registers) (sl : Dict Int Nat) : Registers := ⟨s.heap, s.groups, sl, s.current⟩

theorem groupAssign_ok {s : Registers} {a b : FKey} {g : Nat} (h : s.getitem b = .ok g) :
    FileOp.run s (.assign a b) = (s.setitem a g).1 := by
  simp only [FileOp.run, h]

theorem groupAssign_error {s : Registers} {a b : FKey} {e : PyErr} (h : s.getitem b = .error e) :
    FileOp.run s (.assign a b) = s := by
  simp only [FileOp.run, h]

theorem groupIndex_num {n : Nat} (h : n < 8) : groupIndex (.num n) = some n := by
  simp only [groupIndex]; rw [if_pos (by omega)]; rfl

theorem through_index {ref : Nat → Nat} {g : FKey} (h : ∀ n, n < 8 → ref n < 8) :
    groupIndex (through ref g) = (groupIndex g).map ref := by
  unfold through
  cases hg : groupIndex g with
  | none => exact hg
  | some a => exact groupIndex_num (h a (groupIndex_lt hg))

theorem getitem_slots (W : Nat) (m : RegMap) (gc : Nat → Nat) (c : Nat) {sl : Dict Int Nat}
    {ref : Nat → Nat} (h : GoodSlots sl ref) (g : FKey) :
    Registers.getitem (reslot (canon W m gc c) sl) g =
      (canon W m gc c).getitem (through ref g) := by
  rw [getitem_canon, through_index (fun n hn => (h n hn).2)]
  cases g with
  | slice => rfl
  | other => rfl
  | num k =>
    have hN : ((Registers.NUM_GROUPS : Nat) : Int) = 8 := rfl
    simp only [Registers.getitem, groupIndex]
    by_cases hk : 0 ≤ k ∧ k < 8
    · rw [if_neg (by omega), if_pos hk]
      obtain ⟨n, rfl⟩ := Int.eq_ofNat_of_zero_le hk.1
      have h2 : (reslot (canon W m gc c) sl).slots = sl := rfl
      simp only [h2, dgetE, (h n (by omega)).1, Option.map_some, Int.toNat_natCast]
    · rw [if_pos (by omega), if_neg hk]; rfl

theorem regRef_slots (W : Nat) (m : RegMap) (gc : Nat → Nat) (c : Nat) {sl : Dict Int Nat}
    {ref : Nat → Nat} (h : GoodSlots sl ref) (g : FKey) (k : GKey) :
    Registers.regRef (reslot (canon W m gc c) sl) g k =
      (canon W m gc c).regRef (through ref g) k := by
  unfold Registers.regRef
  rw [getitem_slots W m gc c h]
  rfl

theorem reg_slots (W : Nat) (m : RegMap) (gc : Nat → Nat) (c : Nat) {sl : Dict Int Nat}
    {ref : Nat → Nat} (h : GoodSlots sl ref) (g : FKey) (k : GKey) :
    Registers.reg (reslot (canon W m gc c) sl) g k =
      (canon W m gc c).reg (through ref g) k := by
  unfold Registers.reg
  rw [regRef_slots W m gc c h]
  rfl

theorem onReg_slots (W : Nat) (m : RegMap) (gc : Nat → Nat) (c : Nat) {sl : Dict Int Nat}
    {ref : Nat → Nat} (h : GoodSlots sl ref) (g : FKey) (k : GKey) (f : Register → Register) :
    RegOp.onReg (reslot (canon W m gc c) sl) g k f =
      reslot (RegOp.onReg (canon W m gc c) (through ref g) k f) sl := by
  unfold RegOp.onReg
  rw [regRef_slots W m gc c h]
  cases (canon W m gc c).regRef (through ref g) k <;> rfl

theorem next_slots (W : Nat) (m : RegMap) (gc : Nat → Nat) (c : Nat) (hc : c ≤ 8)
    {sl : Dict Int Nat} {ref : Nat → Nat} (h : GoodSlots sl ref) :
    (Registers.next (reslot (canon W m gc c) sl)).1 =
      reslot (canon W m gc c).next.1 sl := by
  rw [next_canon W m gc c hc]
  unfold Registers.next Registers.NUM_GROUPS
  have h1 : (reslot (canon W m gc c) sl).current = c := rfl
  rw [h1]
  by_cases hc8 : c = 8
  · rw [if_pos (by omega), if_pos hc8]
  · rw [if_neg (by omega), if_neg hc8]
    have h2 : dgetE (reslot (canon W m gc c) sl).slots (c : Int) = .ok (ref c) := by
      show dgetE sl _ = _
      simp only [dgetE, (h c (by omega)).1]
    simp only
    rw [h2]
    rfl

theorem run_slots (W : Nat) (m : RegMap) (gc : Nat → Nat) (c : Nat) (hc : c ≤ 8)
    {sl : Dict Int Nat} {ref : Nat → Nat} (h : GoodSlots sl ref) (op : RegOp) (hop : InRange op) :
    RegOp.run (reslot (canon W m gc c) sl) op =
      reslot (RegOp.run (canon W m gc c) (opThrough ref op)) sl := by
  cases op with
  | write g k v => exact onReg_slots W m gc c h g k _
  | bit g k i x => exact onReg_slots W m gc c h g k _
  | slice g k s e x => exact onReg_slots W m gc c h g k _
  | clearReg g k => exact onReg_slots W m gc c h g k _
  | next g =>
    simp only [RegOp.run, opThrough]
    rw [getitem_slots W m gc c h]
    cases (canon W m gc c).getitem (through ref g) <;> rfl
  | nextFile => exact next_slots W m gc c hc h
  | clearGroup g => exact hop.elim
  | clearFile => exact hop.elim

theorem opThrough_inRange {ref : Nat → Nat} {op : RegOp} (h : InRange op) :
    InRange (opThrough ref op) := by
  cases op <;> exact h

/-- Histories with assignments. -/
theorem runs_slots (W : Nat) (hW : 1 ≤ W) (ops : List FileOp) (hops : ∀ op ∈ ops, InRangeF op)
    (m : RegMap) (gc : Nat → Nat) (c : Nat) (hc : c ≤ 8) (hgc : ∀ g, gc g ≤ 32)
    (hm : ∀ g n, Fits W (m g n)) (sl : Dict Int Nat) (ref : Nat → Nat) (h : GoodSlots sl ref) :
    ∃ gc' c' sl', ops.foldl FileOp.run (reslot (canon W m gc c) sl) =
        reslot (canon W (ops.foldl (sharedStep W) ⟨ref, m⟩).tables gc' c') sl' ∧
      GoodSlots sl' (ops.foldl (sharedStep W) ⟨ref, m⟩).ref ∧
      ∀ g n, Fits W ((ops.foldl (sharedStep W) ⟨ref, m⟩).tables g n) := by
  induction ops generalizing m gc c sl ref with
  | nil => exact ⟨gc, c, sl, rfl, h, hm⟩
  | cons op ops ih =>
    have hop := hops op List.mem_cons_self
    have hrest := fun o ho => hops o (List.mem_cons_of_mem op ho)
    rw [List.foldl_cons, List.foldl_cons]
    cases op with
    | op o =>
      obtain ⟨m', gc', c', h1, h2, h3, h4⟩ := run_canon W hW m gc c hc hgc (opThrough ref o)
      have hm' := h4 (opThrough_inRange hop) hm
      subst hm'
      have e : FileOp.run (reslot (canon W m gc c) sl) (.op o) =
          reslot (canon W (regStep W m (opThrough ref o)) gc' c') sl := by
        show RegOp.run _ o = _
        rw [run_slots W m gc c hc h o hop, h1]
      rw [e]
      exact ih hrest _ gc' c' h2 h3 (regStep_fits W m _ (opThrough_inRange hop) hm) sl ref h
    | assign a b =>
      have hgb := getitem_slots W m gc c h b
      rw [getitem_canon, through_index (fun n hn => (h n hn).2)] at hgb
      cases hb : groupIndex b with
      | none =>
        rw [hb] at hgb
        have e : FileOp.run (reslot (canon W m gc c) sl) (.assign a b) =
            (reslot (canon W m gc c) sl) := groupAssign_error hgb
        have e2 : sharedStep W ⟨ref, m⟩ (.assign a b) = ⟨ref, m⟩ := by
          simp only [sharedStep]; rw [hb]; cases groupIndex a <;> rfl
        rw [e, e2]
        exact ih hrest m gc c hc hgc hm sl ref h
      | some y =>
        rw [hb] at hgb
        have hy := groupIndex_lt hb
        have e : FileOp.run (reslot (canon W m gc c) sl) (.assign a b) =
            (Registers.setitem (reslot (canon W m gc c) sl) a (ref y)).1 := groupAssign_ok hgb
        rw [e]
        cases a with
        | slice => exact ih hrest m gc c hc hgc hm sl ref h
        | other => exact ih hrest m gc c hc hgc hm sl ref h
        | num k =>
          have e3 : (Registers.setitem (reslot (canon W m gc c) sl) (.num k) (ref y)).1 =
              (reslot (canon W m gc c) (dset sl k (ref y))) := rfl
          rw [e3]
          by_cases hk : 0 ≤ k ∧ k < 8
          · have hi : groupIndex (.num k) = some k.toNat := by
              simp only [groupIndex]; rw [if_pos hk]
            have e2 : sharedStep W ⟨ref, m⟩ (.assign (.num k) b) =
                ⟨fun n => if n = k.toNat then ref y else ref n, m⟩ := by
              simp only [sharedStep]; rw [hi, hb]
            rw [e2]
            apply ih hrest m gc c hc hgc hm
            intro n hn
            by_cases hnk : n = k.toNat
            · simp only [hnk, if_true]
              have : ((k.toNat : Nat) : Int) = k := by omega
              rw [this, dget_dset_self]
              exact ⟨rfl, (h y hy).2⟩
            · simp only [if_neg hnk]
              rw [dget_dset_ne _ _ _ _ (by omega)]
              exact h n hn
          · have hi : groupIndex (.num k) = none := by
              simp only [groupIndex]; rw [if_neg hk]
            have e2 : sharedStep W ⟨ref, m⟩ (.assign (.num k) b) = ⟨ref, m⟩ := by
              simp only [sharedStep]; rw [hi]
            rw [e2]
            apply ih hrest m gc c hc hgc hm
            intro n hn
            rw [dget_dset_ne _ _ _ _ (by omega)]
            exact h n hn

/-- C117: after any history of in-range writes to single registers, of iteration and of assignments
`registers[a] = registers[b]`, every register holds what eight tables reached through eight references
hold, an assignment redirecting a reference. -/
theorem C117_references (w : Int) (hw : w = 16 ∨ w = 24) :
    ∃ s0, Registers.init w = .ok s0 ∧ ∀ ops : List FileOp, (∀ op ∈ ops, InRangeF op) →
      ∀ (g : FKey) (k : GKey),
        (∀ a b, groupIndex g = some a → regIndex k = some b →
          ∃ r, (ops.foldl FileOp.run s0).reg g k = .ok r ∧
            r.value = (let f := ops.foldl (sharedStep w.toNat) newShared; f.tables (f.ref a) b) ∧
            Fits w.toNat r.value ∧ r.name = regNames[b]? ∧ (r.width : Int) = w) ∧
        (groupIndex g = none ∨ regIndex k = none →
          (ops.foldl FileOp.run s0).reg g k = .error .valueError) := by
  refine ⟨_, file_init w hw, ?_⟩
  intro ops hops g k
  have h0 : Fits w.toNat 0 := ⟨le_refl _, by positivity⟩
  have hgood : GoodSlots (canon w.toNat (fun _ _ => 0) (fun _ => 0) 0).slots (fun n => n) := by
    intro n hn
    refine ⟨?_, hn⟩
    show dget ((List.range 8).map fun (k : Nat) => ((k : Int), k)) (n : Int) = some n
    rw [dget_map_range (fun (i : Nat) => (i : Int)) (fun i => i) (by intro i j h; simpa using h),
      if_pos hn]
  obtain ⟨gc, c, sl, h1, h2, h3⟩ := runs_slots w.toNat (by omega) ops hops (fun _ _ => 0)
    (fun _ => 0) 0 (by omega) (by intro _; omega) (fun _ _ => h0) _ _ hgood
  have h1' : ops.foldl FileOp.run (canon w.toNat (fun _ _ => 0) (fun _ => 0) 0) = _ := h1
  rw [h1', reg_slots _ _ _ _ h2, reg_canon, through_index (fun n hn => (h2 n hn).2)]
  constructor
  · intro a b ha hb
    rw [ha, hb]
    exact ⟨_, rfl, rfl, h3 _ b, rfl, by simp only [mkReg]; omega⟩
  · intro h
    rcases h with h | h
    · rw [h]; rfl
    · rw [h]; cases groupIndex g <;> rfl

/-- C117: after `registers[a] = registers[b]` the two groups stay the same, whatever is written through
either, as long as neither is assigned again. -/
theorem C117_shared (w : Int) (hw : w = 16 ∨ w = 24) (s0 : Registers)
    (h0 : Registers.init w = .ok s0) (before after : List FileOp) (a b : Nat) (ha : a < 8)
    (hb : b < 8) (h1 : ∀ op ∈ before, InRangeF op) (h2 : ∀ op ∈ after, InRangeF op)
    (h3 : ∀ x y, FileOp.assign x y ∈ after → groupIndex x ≠ some a ∧ groupIndex x ≠ some b)
    (k : GKey) :
    let s := (before ++ [FileOp.assign (.num a) (.num b)] ++ after).foldl FileOp.run s0
    s.reg (.num a) k = s.reg (.num b) k := by
  intro s
  have hall : ∀ op ∈ before ++ [FileOp.assign (.num a) (.num b)] ++ after, InRangeF op := by
    intro op hop
    rcases List.mem_append.1 hop with hop | hop
    · rcases List.mem_append.1 hop with hop | hop
      · exact h1 op hop
      · cases List.mem_singleton.1 hop; trivial
    · exact h2 op hop
  have hgood : GoodSlots (canon w.toNat (fun _ _ => 0) (fun _ => 0) 0).slots (fun n => n) := by
    intro n hn
    refine ⟨?_, hn⟩
    show dget ((List.range 8).map fun (k : Nat) => ((k : Int), k)) (n : Int) = some n
    rw [dget_map_range (fun (i : Nat) => (i : Int)) (fun i => i) (by intro i j h; simpa using h),
      if_pos hn]
  obtain ⟨gc, c, sl, g1, g2, -⟩ := runs_slots w.toNat (by omega) _ hall (fun _ _ => 0)
    (fun _ => 0) 0 (by omega) (by intro _; omega) (fun _ _ => ⟨le_refl _, by positivity⟩) _ _ hgood
  rw [file_init w hw] at h0
  injection h0 with h0
  subst h0
  have hs := g1
  change s = _ at hs
  have hto : ∀ f : SharedFile, f.ref a = f.ref b →
      (after.foldl (sharedStep w.toNat) f).ref a = (after.foldl (sharedStep w.toNat) f).ref b := by
    clear h2 hall g1 g2 hs s gc c sl
    induction after with
    | nil => exact fun _ h => h
    | cons op after ih =>
      intro f hf
      rw [List.foldl_cons]
      apply ih (fun x y hx => h3 x y (List.mem_cons_of_mem _ hx))
      cases op with
      | op o => exact hf
      | assign x y =>
        obtain ⟨n1, n2⟩ := h3 x y List.mem_cons_self
        simp only [sharedStep]
        cases hx : groupIndex x with
        | none => simpa only using hf
        | some i =>
          cases hy : groupIndex y with
          | none => simpa only using hf
          | some j =>
            have e1 : a ≠ i := by rintro rfl; exact n1 hx
            have e2 : b ≠ i := by rintro rfl; exact n2 hx
            simpa only [if_neg e1, if_neg e2] using hf
  have key : ∀ f : SharedFile, (sharedStep w.toNat f (.assign (.num a) (.num b))).ref a =
      (sharedStep w.toNat f (.assign (.num a) (.num b))).ref b := by
    intro f
    simp only [sharedStep]
    rw [groupIndex_num ha, groupIndex_num hb]
    simp only [if_true]
    split <;> rfl
  have hab : (List.foldl (sharedStep w.toNat) (⟨fun n => n, fun _ _ => 0⟩ : SharedFile)
      (before ++ [FileOp.assign (.num a) (.num b)] ++ after)).ref a =
      (List.foldl (sharedStep w.toNat) (⟨fun n => n, fun _ _ => 0⟩ : SharedFile)
      (before ++ [FileOp.assign (.num a) (.num b)] ++ after)).ref b := by
    rw [List.foldl_append, List.foldl_append]
    exact hto _ (key _)
  rw [hs, reg_slots _ _ _ _ g2, reg_slots _ _ _ _ g2]
  unfold through
  rw [groupIndex_num ha, groupIndex_num hb]
  simp only
  rw [hab]

/-- C117 on a short history: a write through group 3 after `registers[3] = registers[2]` is seen in
group 2, and still after group 3 got another group; the write before that is not seen by anybody. -/
example : let ops : List FileOp := [.op (.write (.num 3) (.name (py "X0")) 1),
      .assign (.num 3) (.num 2), .op (.write (.num 3) (.name (py "X0")) 7),
      .assign (.num 3) (.num 4), .op (.write (.num 3) (.name (py "X0")) 9)]
    let f := ops.foldl (sharedStep 16) newShared
    f.tables (f.ref 2) 8 = 7 ∧ f.tables (f.ref 3) 8 = 9 ∧ f.tables (f.ref 4) 8 = 9 ∧
      (∀ op ∈ ops, InRangeF op) := by
  refine ⟨by decide, by decide, by decide, ?_⟩
  intro op hop
  simp only [List.mem_cons, List.not_mem_nil, or_false] at hop
  rcases hop with rfl | rfl | rfl | rfl | rfl <;> trivial

end H800
