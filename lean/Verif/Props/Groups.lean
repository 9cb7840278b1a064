import Verif.Lemmas.Groups
import Verif.Props.Registers

/-!
Property C203: the bits of a field taken in groups, as the figures of the reference manual divide
words, addresses and registers.
-/

namespace H800

open Spec

/-! ### C203 -/

/-- C203, reading: whatever the value of an MSB-left field and its numbering, the numbers read at the
subscripts of consecutive groups fit their groups, and joined from the left they are the value. -/
theorem C203_read (b : BitField) (ho : b.order = .msbLeft) (ns : List Nat) (ks : List Key)
    (hn : ∀ n ∈ ns, 1 ≤ n) (hs : ns.sum = b.width)
    (hk : List.Forall₂ (fun k g => Denotes b.numbering.code b.width k g.1 g.2) ks (bitGroups ns)) :
    ∃ xs, ks.mapM b.getitem = .ok xs ∧ List.Forall₂ Fits ns xs ∧
      ofGroups (ns.zip xs) = b.value % 2 ^ b.width ∧
      (Fits b.width b.value → ofGroups (ns.zip xs) = b.value) := by
  refine ⟨_, read_groups ho _ _ (fun g hg => ?_) hk, ?_, ?_, fun hb => ?_⟩
  · have := group_fits ns g hg
    exact ⟨hn _ this.2, by omega⟩
  · clear hk hs hn
    induction ns with
    | nil => exact .nil
    | cons n ns ih =>
      refine .cons ?_ ih
      have h2 : (0 : Int) < 2 ^ n := by positivity
      exact ⟨Int.emod_nonneg _ (ne_of_gt h2), Int.emod_lt_of_pos _ h2⟩
  · have := join_fields b.value ns 0
    rw [hs] at this
    simpa [ofGroups] using this
  · have := join_fields b.value ns 0
    rw [hs, Int.emod_eq_of_lt hb.1 hb.2] at this
    simpa [ofGroups] using this

theorem groups_length : ∀ ns : List Nat, (bitGroups ns).length = ns.length
  | [] => rfl
  | _ :: ns => by simp [bitGroups, groups_length ns]

/-- The list of what is written where, from the three lists. -/
theorem zip_mem_groups : ∀ (ns : List Nat) (ks : List Key) (xs : List Int) {P : Key → Nat × Nat → Prop},
    List.Forall₂ P ks (bitGroups ns) → List.Forall₂ Fits ns xs →
    (∀ w ∈ (bitGroups ns).zip (ks.zip xs), P w.2.1 w.1 ∧ Fits w.1.2 w.2.2) ∧
      ((bitGroups ns).zip (ks.zip xs)).map (·.2) = ks.zip xs ∧
      ((bitGroups ns).zip (ks.zip xs)).map (·.1) = bitGroups ns
  | [], _, _, _, .nil, .nil => by simp [bitGroups]
  | n :: ns, _, _, P, .cons (l₁ := ks) hk hks, .cons (l₂ := xs) hx hxs => by
    obtain ⟨h1, h2, h3⟩ := zip_mem_groups ns ks xs hks hxs
    refine ⟨?_, ?_, ?_⟩
    · intro w hw
      simp only [bitGroups, List.zip_cons_cons, List.mem_cons] at hw
      rcases hw with rfl | hw
      · exact ⟨hk, hx⟩
      · exact h1 w hw
    · simp only [bitGroups, List.zip_cons_cons, List.map_cons, h2]
    · simp only [bitGroups, List.zip_cons_cons, List.map_cons, h3]

theorem apart_symm {g g' : Nat × Nat} (h : Apart g g') : Apart g' g := Or.symm h

/-- A list that is a permutation of the seconds of a list of pairs is the seconds of a permutation. -/
theorem perm_lift {α β : Type} {l : List (α × β)} : ∀ {ws : List β}, ws.Perm (l.map (·.2)) →
    ∃ l' : List (α × β), l'.Perm l ∧ l'.map (·.2) = ws := by
  intro ws h
  generalize e : l.map (·.2) = m at h
  induction h generalizing l with
  | nil => exact ⟨l, .refl _, e⟩
  | cons x _ ih =>
    cases l with
    | nil => cases e
    | cons p l =>
      simp only [List.map_cons, List.cons.injEq] at e
      obtain ⟨l', h1, h2⟩ := ih e.2
      exact ⟨p :: l', h1.cons p, by simp [h2, e.1]⟩
  | swap x y t =>
    cases l with
    | nil => cases e
    | cons p l =>
      cases l with
      | nil => simp at e
      | cons q l =>
        simp only [List.map_cons, List.cons.injEq] at e
        exact ⟨q :: p :: l, .swap _ _ _, by simp [e.1, e.2.1, e.2.2]⟩
  | trans _ _ ih1 ih2 =>
    obtain ⟨l2, h1, h2⟩ := ih2 e
    obtain ⟨l1, h3, h4⟩ := ih1 h2
    exact ⟨l1, h3.trans h1, h4⟩

/-- C203, writing: numbers that fit, written to the subscripts of consecutive groups in any order, are
all accepted; whatever the value was before, it is now the numbers joined from the left, every group
reads back as written, and nothing else of the field has changed. -/
theorem C203_write (b : BitField) (ho : b.order = .msbLeft) (hb : Fits b.width b.value) (ns : List Nat)
    (ks : List Key) (xs : List Int) (hn : ∀ n ∈ ns, 1 ≤ n) (hs : ns.sum = b.width)
    (hk : List.Forall₂ (fun k g => Denotes b.numbering.code b.width k g.1 g.2) ks (bitGroups ns))
    (hx : List.Forall₂ Fits ns xs) (ws : List (Key × Int)) (hw : ws.Perm (ks.zip xs)) :
    ∃ b', ws.foldlM (fun b w => b.assign w.1 w.2) b = .ok b' ∧
      b' = { b with value := ofGroups (ns.zip xs) } ∧ ks.mapM b'.getitem = .ok xs := by
  obtain ⟨h1, h2, h3⟩ := zip_mem_groups ns ks xs hk hx
  rw [← h2] at hw
  obtain ⟨l, hp, rfl⟩ := perm_lift hw
  have hmem : ∀ w ∈ l, w.1 ∈ bitGroups ns := fun w hw => by
    rw [← h3]; exact List.mem_map_of_mem (hp.mem_iff.1 hw)
  obtain ⟨v, hv, hf, hall, -⟩ := write_groups b.width l b ho rfl hb
    (fun w hw => by
      have hg := group_fits ns w.1 (hmem w hw)
      have := h1 w (hp.mem_iff.1 hw)
      exact ⟨hn _ hg.2, by omega, this.1, this.2⟩)
    (by
      have h0 := groups_apart ns
      rw [← h3, List.pairwise_map] at h0
      exact h0.perm hp.symm (fun h => apart_symm h))
  have hfields : (bitGroups ns).map (fun g => field v g.1 g.2) = xs := by
    have e : ((bitGroups ns).zip (ks.zip xs)).map (fun w => field v w.1.1 w.1.2) =
        ((bitGroups ns).zip (ks.zip xs)).map (fun w => w.2.2) :=
      List.map_congr_left fun w hw => hall w (hp.mem_iff.2 hw)
    have e1 : ((bitGroups ns).zip (ks.zip xs)).map (fun w => field v w.1.1 w.1.2) =
        (((bitGroups ns).zip (ks.zip xs)).map (·.1)).map (fun g => field v g.1 g.2) := by
      simp [List.map_map, Function.comp_def]
    have e2 : ((bitGroups ns).zip (ks.zip xs)).map (fun w => w.2.2) =
        (((bitGroups ns).zip (ks.zip xs)).map (·.2)).map (·.2) := by
      simp [List.map_map, Function.comp_def]
    rw [e1, e2, h3, h2] at e
    rw [e, List.map_snd_zip]
    have l1 := hk.length_eq
    have l2 := hx.length_eq
    have l3 := groups_length ns
    omega
  have hval : ofGroups (ns.zip xs) = v := by
    have := join_fields v ns 0
    rw [hs, Int.emod_eq_of_lt hf.1 hf.2, hfields] at this
    simpa [ofGroups] using this
  refine ⟨_, hv, by rw [hval], ?_⟩
  have := read_groups (b := { b with value := v }) ho (bitGroups ns) ks (fun g hg => by
    have := group_fits ns g hg
    exact ⟨hn _ this.2, by show g.1 + g.2 ≤ b.width; omega⟩) hk
  rw [this, hfields]

/-- C203, the layout decides: two lists of fitting numbers that join to the same value are the same. -/
theorem C203_unique : ∀ (ns : List Nat) (xs ys : List Int), List.Forall₂ Fits ns xs →
    List.Forall₂ Fits ns ys → ofGroups (ns.zip xs) = ofGroups (ns.zip ys) → xs = ys := by
  have key : ∀ (ns : List Nat) (xs ys : List Int) (a c : Int), List.Forall₂ Fits ns xs →
      List.Forall₂ Fits ns ys →
      (ns.zip xs).foldl (fun acc g => acc * 2 ^ g.1 + g.2) a =
        (ns.zip ys).foldl (fun acc g => acc * 2 ^ g.1 + g.2) c → a = c ∧ xs = ys := by
    intro ns xs ys a c hx
    induction hx generalizing ys a c with
    | nil => intro hy h; cases hy; exact ⟨by simpa using h, rfl⟩
    | @cons n x ns xs h1 _ ih =>
      intro hy h
      cases hy with
      | @cons _ y _ ys h2 hys =>
        simp only [List.zip_cons_cons, List.foldl_cons] at h
        obtain ⟨e1, e2⟩ := ih ys _ _ hys h
        have hp : (0 : Int) < 2 ^ n := by positivity
        have hx' : x = y := by
          have := congrArg (· % (2 : Int) ^ n) e1
          simpa [Int.add_emod, Int.emod_eq_of_lt h1.1 h1.2, Int.emod_eq_of_lt h2.1 h2.2] using this
        subst hx'
        have : a * 2 ^ n = c * 2 ^ n := by omega
        exact ⟨Int.eq_of_mul_eq_mul_right (by omega) this, by rw [e2]⟩
  intro ns xs ys hx hy h
  exact (key ns xs ys 0 0 hx hy h).2

/-- C203, addresses in special registers (Figure IV-1 of the manual, after the sign bit): the sign, the
bank indicator and the subaddress of a 16-bit register. -/
theorem C203_address {r : Register} (hr : RegisterReach r) (h16 : r.width = 16)
    (hf : Fits 16 r.value) :
    ∃ s bank sub, r.getitem (.idx 1) = .ok s ∧ r.getitem (.slice (some 2) (some 5)) = .ok bank ∧
      r.getitem (.slice (some 6) (some 16)) = .ok sub ∧
      Fits 1 s ∧ Fits 4 bank ∧ Fits 11 sub ∧ r.value = s * 2 ^ 15 + (bank * 2048 + sub) := by
  obtain ⟨-, hd⟩ := registerReach_shape hr
  have ho : r.data.order = .msbLeft := by rw [hd]
  have hw : r.data.width = 16 := by rw [hd]; exact h16
  have hnum : r.data.numbering = .msb1 := by rw [hd]
  obtain ⟨xs, h1, h2, -, h4⟩ := C203_read r.data ho [1, 4, 11]
    [.idx 1, .slice (some 2) (some 5), .slice (some 6) (some 16)] (by decide) (by rw [hw]; rfl)
    (by
      rw [hw, hnum]
      refine .cons ?_ (.cons ?_ (.cons ?_ .nil)) <;> simp [Denotes, weightExp, Numbering.code])
  cases h2 with
  | cons a1 h2 => cases h2 with
    | cons a2 h2 => cases h2 with
      | cons a3 h2 =>
        cases h2
        obtain ⟨y, ys, e1, h1, e⟩ := mapM_cons_ok.1 h1
        obtain ⟨y2, ys2, e2, h1, e'⟩ := mapM_cons_ok.1 h1
        obtain ⟨y3, ys3, e3, h1, e''⟩ := mapM_cons_ok.1 h1
        subst e''
        subst e'
        simp only [List.cons.injEq] at e
        obtain ⟨rfl, rfl, rfl, -⟩ := e
        refine ⟨_, _, _, e1, e2, e3, a1, a2, a3, ?_⟩
        have := h4 (by rw [hw]; exact hf)
        rw [Register.value, ← this]
        simp only [ofGroups, List.zip_cons_cons, List.zip_nil_right, List.foldl_cons, List.foldl_nil]
        omega

/-! ### Examples -/

/-- The hypotheses are met: the layout of an address in an arbitrary register of 16 bits, and that of
the four addresses of a word counted from the right. -/
example : List.Forall₂ (fun k g => Denotes 3 16 k g.1 g.2)
    [.idx 1, .slice (some 2) (some 5), .slice (some 6) (some 16)] (bitGroups [1, 4, 11]) := by
  refine .cons ?_ (.cons ?_ (.cons ?_ .nil)) <;> simp [Denotes, weightExp]

example : List.Forall₂ (fun k g => Denotes 0 48 k g.1 g.2)
    [.slice (some 47) (some 36), .slice (some 35) (some 24), .slice (some 23) (some 12),
      .slice (some 11) (some 0)] (bitGroups [12, 12, 12, 12]) := by
  refine .cons ?_ (.cons ?_ (.cons ?_ (.cons ?_ .nil))) <;> simp [Denotes, weightExp]

/-- Subaddress 1025 of bank 5, with the sign; written from the right to the left. -/
example :
    (do
      let b ← (⟨16, 0o177777, .msb1, .msbLeft⟩ : BitField).assign (.slice (some 6) (some 16)) 1025
      let b ← b.assign (.slice (some 2) (some 5)) 5
      b.assign (.idx 1) 1) = .ok ⟨16, 32768 + 5 * 2048 + 1025, .msb1, .msbLeft⟩ ∧
    ofGroups [(1, 1), (4, 5), (11, 1025)] = 32768 + 5 * 2048 + 1025 := by decide +kernel

example : Register.init (32768 + 5 * 2048 + 1025) (some (py "MXR")) 16 =
      .ok ⟨⟨16, 44033, .msb1, .msbLeft⟩, some (py "MXR"), 16⟩ ∧
    Register.getitem ⟨⟨16, 44033, .msb1, .msbLeft⟩, some (py "MXR"), 16⟩ (.slice (some 2) (some 5)) =
      .ok 5 := by decide +kernel

end H800
