import Verif.Lemmas.Fields
import Verif.Lemmas.Decks
import Verif.Spec.Groups

/-! Reading and writing the groups of bits of an MSB-left field. -/

namespace H800

open Spec

theorem field_zero_add (v : Int) (p n : Nat) :
    field v p n * 2 ^ p + v % 2 ^ p = v % 2 ^ (n + p) := by
  unfold field
  have h := decomp v p n
  have h2 := Int.emod_add_mul_ediv v (2 ^ (n + p))
  rw [Nat.add_comm p n] at h
  linear_combination -h - h2

/-- The groups of a number, joined. -/
theorem join_fields (v : Int) : ∀ (ns : List Nat) (acc : Int),
    (ns.zip ((bitGroups ns).map fun g => field v g.1 g.2)).foldl
      (fun acc g => acc * 2 ^ g.1 + g.2) acc = acc * 2 ^ ns.sum + v % 2 ^ ns.sum
  | [], acc => by simp [bitGroups]
  | n :: ns, acc => by
    simp only [bitGroups, List.map_cons, List.zip_cons_cons, List.foldl_cons, List.sum_cons]
    rw [join_fields v ns]
    have := field_zero_add v ns.sum n
    rw [pow_add]
    rw [pow_add] at this
    linear_combination this

theorem group_fits : ∀ (ns : List Nat) (g : Nat × Nat), g ∈ bitGroups ns → g.1 + g.2 ≤ ns.sum ∧ g.2 ∈ ns
  | [], g, h => by simp [bitGroups] at h
  | n :: ns, g, h => by
    simp only [bitGroups, List.mem_cons] at h
    rcases h with rfl | h
    · exact ⟨by simp; omega, by simp⟩
    · have := group_fits ns g h
      exact ⟨by simp only [List.sum_cons]; omega, by simp [this.2]⟩

/-- Two groups have no bit in common. -/
def Apart (g g' : Nat × Nat) : Prop := g.1 + g.2 ≤ g'.1 ∨ g'.1 + g'.2 ≤ g.1

theorem groups_apart : ∀ ns : List Nat, (bitGroups ns).Pairwise Apart
  | [] => List.Pairwise.nil
  | n :: ns => by
    simp only [bitGroups]
    exact List.Pairwise.cons (fun g hg => .inr (group_fits ns g hg).1) (groups_apart ns)

theorem field_putField_same (v x : Int) (lo n : Nat) (hx : Fits n x) :
    field (putField v lo n x) lo n = x := by
  unfold putField field
  rw [Int.add_mul_ediv_right _ _ (by positivity)]
  have : v / 2 ^ lo + (x - v / 2 ^ lo % 2 ^ n) = x + v / 2 ^ lo / 2 ^ n * 2 ^ n := by
    have := Int.emod_add_mul_ediv (v / 2 ^ lo) (2 ^ n)
    linear_combination -this
  rw [this, Int.add_mul_emod_self_right]
  exact Int.emod_eq_of_lt hx.1 hx.2

theorem field_putField_apart (v x : Int) (lo n lo' n' : Nat) (h : Apart (lo, n) (lo', n'))
    (hx : Fits n x) : field (putField v lo n x) lo' n' = field v lo' n' := by
  have hp : putField v lo n x = v + (x - field v lo n) * 2 ^ lo := rfl
  rcases h with h | h
  · -- written below
    simp only at h
    have hlow : (putField v lo n x) / 2 ^ (lo + n) = v / 2 ^ (lo + n) := by
      have h1 := decomp v lo n
      have hf : field v lo n = v / 2 ^ lo % 2 ^ n := rfl
      have h2 : putField v lo n x = (v % 2 ^ lo + x * 2 ^ lo) + v / 2 ^ (lo + n) * 2 ^ (lo + n) := by
        rw [hp, hf]; linear_combination h1
      rw [h2, Int.add_mul_ediv_right _ _ (by positivity)]
      have h3 : (v % 2 ^ lo + x * 2 ^ lo) / 2 ^ (lo + n) = 0 := by
        apply Int.ediv_eq_zero_of_lt
        · have := Int.emod_nonneg v (b := 2 ^ lo) (by positivity)
          have := mul_nonneg hx.1 (show (0:Int) ≤ 2 ^ lo by positivity)
          omega
        · have a := Int.emod_lt_of_pos v (b := 2 ^ lo) (by positivity)
          have b : (x + 1) * 2 ^ lo ≤ 2 ^ n * 2 ^ lo :=
            mul_le_mul_of_nonneg_right (by have := hx.2; omega) (by positivity)
          have c : (2:Int) ^ (lo + n) = 2 ^ n * 2 ^ lo := by rw [pow_add]; ring
          rw [c]
          have d : (x + 1) * 2 ^ lo = x * 2 ^ lo + 2 ^ lo := by ring
          omega
      rw [h3, zero_add]
    have hd : ∀ u : Int, u / 2 ^ lo' = u / 2 ^ (lo + n) / 2 ^ (lo' - (lo + n)) := by
      intro u
      rw [Int.ediv_ediv_of_nonneg (by positivity), ← pow_add, Nat.add_sub_cancel' h]
    unfold field
    rw [hd, hlow, ← hd]
  · simp only at h
    unfold field at *
    have hk : (2:Int) ^ lo = 2 ^ lo' * 2 ^ n' * 2 ^ (lo - (lo' + n')) := by
      rw [← pow_add, ← pow_add]; congr 1; omega
    have h2 : v + (x - v / 2 ^ lo % 2 ^ n) * 2 ^ lo =
        v + ((x - v / 2 ^ lo % 2 ^ n) * 2 ^ (lo - (lo' + n'))) * 2 ^ n' * 2 ^ lo' := by
      rw [hk]; ring
    rw [hp, h2, Int.add_mul_ediv_right _ _ (by positivity), Int.add_mul_emod_self_right]

namespace BitField

/-- What a subscript that denotes a group reads. -/
theorem getitem_denotes {b : BitField} {k : Key} {lo n : Nat} (ho : b.order = .msbLeft)
    (hn : 1 ≤ n) (hw : lo + n ≤ b.width) (h : Denotes b.numbering.code b.width k lo n) :
    b.getitem k = .ok (field b.value lo n) := by
  match k, h with
  | .idx i, h =>
    obtain ⟨rfl, hw1⟩ := h
    have hi : b.getitem (.idx i) = b.getIndex i := rfl
    have hwt : b.wt i = lo := hw1
    rw [hi, getIndex_eq, hwt, if_pos (by omega)]
    simp only [Int.toNat_natCast, bitOf, field, pow_one]
  | .slice (some s) (some e), h => exact getitem_field b s e lo n ho hn hw h.1 h.2
  | .slice none _, h => exact h.elim
  | .slice (some _) none, h => exact h.elim

/-- What an assignment to such a subscript does. -/
theorem assign_denotes {b : BitField} {k : Key} {lo n : Nat} {x : Int} (ho : b.order = .msbLeft)
    (hn : 1 ≤ n) (hw : lo + n ≤ b.width) (h : Denotes b.numbering.code b.width k lo n)
    (hb : Fits b.width b.value) (hx : Fits n x) :
    b.assign k x = .ok { b with value := putField b.value lo n x } := by
  match k, h with
  | .idx i, h =>
    obtain ⟨rfl, hw1⟩ := h
    unfold assign; rw [setitem_bit_putField b i x lo hw1 (by omega) hb hx]
  | .slice (some s) (some e), h =>
    unfold assign; rw [setitem_putField b s e x lo n ho hn hw h.1 h.2 hb hx]
  | .slice none _, h => exact h.elim
  | .slice (some _) none, h => exact h.elim

end BitField

/-- Reading all groups. -/
theorem read_groups {b : BitField} (ho : b.order = .msbLeft) : ∀ (gs : List (Nat × Nat)) (ks : List Key),
    (∀ g ∈ gs, 1 ≤ g.2 ∧ g.1 + g.2 ≤ b.width) →
    List.Forall₂ (fun k g => Denotes b.numbering.code b.width k g.1 g.2) ks gs →
    ks.mapM b.getitem = .ok (gs.map fun g => field b.value g.1 g.2)
  | _, _, _, .nil => rfl
  | g :: gs, k :: ks, hg, .cons h hs => by
    have h0 := hg g (by simp)
    exact mapM_cons_ok.2 ⟨_, _, BitField.getitem_denotes ho h0.1 h0.2 h,
      read_groups ho gs ks (fun g' hg' => hg g' (by simp [hg'])) hs, rfl⟩

/-- A list of writes to groups that have no bits in common: all are done, and every group holds the
number written to it. -/
theorem write_groups (W : Nat) : ∀ (ws : List ((Nat × Nat) × Key × Int)) (b : BitField),
    b.order = .msbLeft → b.width = W → Fits W b.value →
    (∀ w ∈ ws, 1 ≤ w.1.2 ∧ w.1.1 + w.1.2 ≤ W ∧
      Denotes b.numbering.code W w.2.1 w.1.1 w.1.2 ∧ Fits w.1.2 w.2.2) →
    ws.Pairwise (fun w w' => Apart w.1 w'.1) →
    ∃ v, (ws.map (·.2)).foldlM (fun b w => b.assign w.1 w.2) b = .ok { b with value := v } ∧
      Fits W v ∧ (∀ w ∈ ws, field v w.1.1 w.1.2 = w.2.2) ∧
      ∀ g, (∀ w ∈ ws, Apart w.1 g) → field v g.1 g.2 = field b.value g.1 g.2
  | [], b, _, _, hv, _, _ => ⟨b.value, rfl, hv, by simp, by simp⟩
  | w :: ws, b, ho, hW, hv, hw, hp => by
    subst hW
    obtain ⟨h1, h2, h3, h4⟩ := hw w (by simp)
    have ha := BitField.assign_denotes ho h1 h2 h3 hv h4
    have hf := putField_fits' b.width w.1.1 w.1.2 b.value w.2.2 h2 hv h4
    obtain ⟨v, e, hv', hall, hout⟩ := write_groups b.width ws
      { b with value := putField b.value w.1.1 w.1.2 w.2.2 } ho rfl hf
      (fun w' hw' => hw w' (by simp [hw'])) (List.pairwise_cons.1 hp).2
    refine ⟨v, ?_, hv', ?_, ?_⟩
    · rw [List.map_cons, List.foldlM_cons, ha]
      exact e
    · intro w' hw'
      rcases List.mem_cons.1 hw' with rfl | hw'
      · rw [hout w'.1 (fun u hu => ?_)]
        · exact field_putField_same _ _ _ _ h4
        · rcases (List.pairwise_cons.1 hp).1 u hu with h | h
          · exact .inr h
          · exact .inl h
      · exact hall w' hw'
    · intro g hg
      rw [hout g (fun u hu => hg u (by simp [hu]))]
      exact field_putField_apart _ _ _ _ _ _ (hg w (by simp)) h4

end H800
