import Verif.Spec.DocTable
import Verif.Props.Instruction

/-!
Lemmas for C98: the twelve digits of a code, and the shapes of the documented patterns.
-/

namespace H800

open Spec

/-- The number with the given twelve digits. -/
def sum12 (d0 d1 d2 d3 d4 d5 d6 d7 d8 d9 d10 d11 : Int) : Int :=
  2048 * d0 + 1024 * d1 + 512 * d2 + 256 * d3 + 128 * d4 + 64 * d5 + 32 * d6 + 16 * d7 + 8 * d8 +
    4 * d9 + 2 * d10 + d11

theorem bit_range {x : Int} (h : Bit x) : 0 ≤ x ∧ x ≤ 1 := by
  rcases h with h | h <;> omega

theorem bit_of_range {x : Int} (h : 0 ≤ x ∧ x ≤ 1) : Bit x := by
  unfold Bit; omega

theorem bit_mod (x : Int) : Bit (x % 2) := by unfold Bit; omega

theorem digits12_sum {d0 d1 d2 d3 d4 d5 d6 d7 d8 d9 d10 d11 : Int} (h0 : Bit d0) (h1 : Bit d1)
    (h2 : Bit d2) (h3 : Bit d3) (h4 : Bit d4) (h5 : Bit d5) (h6 : Bit d6) (h7 : Bit d7)
    (h8 : Bit d8) (h9 : Bit d9) (h10 : Bit d10) (h11 : Bit d11) :
    digits12 (sum12 d0 d1 d2 d3 d4 d5 d6 d7 d8 d9 d10 d11) =
      [d0, d1, d2, d3, d4, d5, d6, d7, d8, d9, d10, d11] := by
  have g0 := bit_range h0
  have g1 := bit_range h1
  have g2 := bit_range h2
  have g3 := bit_range h3
  have g4 := bit_range h4
  have g5 := bit_range h5
  have g6 := bit_range h6
  have g7 := bit_range h7
  have g8 := bit_range h8
  have g9 := bit_range h9
  have g10 := bit_range h10
  have g11 := bit_range h11
  clear h0 h1 h2 h3 h4 h5 h6 h7 h8 h9 h10 h11
  have e : List.range 12 = [0, 1, 2, 3, 4, 5, 6, 7, 8, 9, 10, 11] := by decide
  unfold digits12 sum12
  rw [e]
  simp only [List.map_cons, List.map_nil, Nat.sub_zero, Nat.reduceSub, Int.reducePow, pow_zero,
    pow_one, Int.ediv_one, List.cons.injEq, and_true]
  refine ⟨?_, ?_, ?_, ?_, ?_, ?_, ?_, ?_, ?_, ?_, ?_, ?_⟩ <;> omega

theorem sum12_exists {code : Int} (h : Fits 12 code) :
    ∃ d0 d1 d2 d3 d4 d5 d6 d7 d8 d9 d10 d11, Bit d0 ∧ Bit d1 ∧ Bit d2 ∧ Bit d3 ∧ Bit d4 ∧ Bit d5 ∧
      Bit d6 ∧ Bit d7 ∧ Bit d8 ∧ Bit d9 ∧ Bit d10 ∧ Bit d11 ∧
      code = sum12 d0 d1 d2 d3 d4 d5 d6 d7 d8 d9 d10 d11 := by
  have h1 := h.1
  have h2 : code < 4096 := by have := h.2; norm_num at this; exact this
  have key : ∀ (n : Int) (x : Int), 0 ≤ x → x < 2 * n → ∃ q d, Bit d ∧ x = 2 * q + d ∧ 0 ≤ q ∧ q < n :=
    fun n x a b => ⟨x / 2, x % 2, bit_mod _, by omega, by omega, by omega⟩
  obtain ⟨q1, d11, b11, e11, l1, u1⟩ := key 2048 code h1 (by omega)
  obtain ⟨q2, d10, b10, e10, l2, u2⟩ := key 1024 q1 l1 (by omega)
  obtain ⟨q3, d9, b9, e9, l3, u3⟩ := key 512 q2 l2 (by omega)
  obtain ⟨q4, d8, b8, e8, l4, u4⟩ := key 256 q3 l3 (by omega)
  obtain ⟨q5, d7, b7, e7, l5, u5⟩ := key 128 q4 l4 (by omega)
  obtain ⟨q6, d6, b6, e6, l6, u6⟩ := key 64 q5 l5 (by omega)
  obtain ⟨q7, d5, b5, e5, l7, u7⟩ := key 32 q6 l6 (by omega)
  obtain ⟨q8, d4, b4, e4, l8, u8⟩ := key 16 q7 l7 (by omega)
  obtain ⟨q9, d3, b3, e3, l9, u9⟩ := key 8 q8 l8 (by omega)
  obtain ⟨q10, d2, b2, e2, l10, u10⟩ := key 4 q9 l9 (by omega)
  obtain ⟨q11, d1, b1, e1, l11, u11⟩ := key 2 q10 l10 (by omega)
  refine ⟨q11, d1, d2, d3, d4, d5, d6, d7, d8, d9, d10, d11, bit_of_range ⟨l11, by omega⟩, b1, b2,
    b3, b4, b5, b6, b7, b8, b9, b10, b11, ?_⟩
  subst e1 e2 e3 e4 e5 e6 e7 e8 e9 e10 e11
  unfold sum12
  ring

/-- The value of a fixed position. -/
def posVal (c : Char) : Int := if c = '1' then 1 else 0

/-- A fixed position. -/
def isPos (c : Char) : Bool := c = '0' || c = '1'

theorem pos_bit (c : Char) : Bit (posVal c) := by
  unfold posVal Bit; split <;> simp

theorem pos_iff {c : Char} (hc : isPos c = true) (d : Int) :
    ((c = '0' → d = 0) ∧ (c = '1' → d = 1)) ↔ d = posVal c := by
  unfold isPos at hc
  simp only [Bool.or_eq_true, decide_eq_true_eq] at hc
  rcases hc with rfl | rfl <;> simp [posVal]

/-- The last five positions spell the low five bits of an opcode. -/
def tailOk (op : Int) : Str → Bool
  | [c7, c8, c9, c10, c11] =>
    isPos c7 && isPos c8 && isPos c9 && isPos c10 && isPos c11 &&
      op = 16 * posVal c7 + 8 * posVal c8 + 4 * posVal c9 + 2 * posVal c10 + posVal c11
  | _ => false

theorem tailOk_iff {op : Int} {t : Str} (h : tailOk op t = true) :
    ∃ c7 c8 c9 c10 c11, t = [c7, c8, c9, c10, c11] ∧ isPos c7 = true ∧ isPos c8 = true ∧
      isPos c9 = true ∧ isPos c10 = true ∧ isPos c11 = true ∧
      op = 16 * posVal c7 + 8 * posVal c8 + 4 * posVal c9 + 2 * posVal c10 + posVal c11 := by
  match t with
  | [c7, c8, c9, c10, c11] =>
    simp only [tailOk, Bool.and_eq_true, decide_eq_true_eq] at h
    exact ⟨c7, c8, c9, c10, c11, rfl, h.1.1.1.1.1, h.1.1.1.1.2, h.1.1.1.2, h.1.1.2, h.1.2, h.2⟩
  | [] | [_] | [_, _] | [_, _, _] | [_, _, _, _] | _ :: _ :: _ :: _ :: _ :: _ :: _ =>
    simp [tailOk] at h

/-- Bits 2-3 of a pattern. -/
def headOk (b23 : Int) : Str → Bool
  | [c1, c2] => isPos c1 && isPos c2 && b23 = 2 * posVal c1 + posVal c2
  | _ => false

/-- The shape of a row of the table, given the opcode record of its mnemonic. -/
def rowShape (o : Opcode) (row : DocRow) : Bool :=
  if row.form = py "masked" then
    o.type = py "maskable" && row.pat.take 7 = py "smmmmm1" && tailOk o.op (row.pat.drop 7)
  else if row.form = py "unmasked" then
    o.type = py "maskable" && row.pat.take 1 = py "s" && (o.b23.any fun h => headOk h
      ((row.pat.drop 1).take 2)) && (row.pat.drop 3).take 4 = py "abc0" &&
      tailOk o.op (row.pat.drop 7)
  else if row.form = py "direct" then
    o.type = py "simulator" && o.op = 7 && row.pat = py "0xxxxxxxx111"
  else if row.form = py "indexed" then
    o.type = py "simulator" && o.op = 7 && row.pat = py "1xxxxxxxx111"
  else
    row.form = [] &&
    ((o.type = py "unmasked" && row.pat.take 1 = py "s" && (o.b23.any fun h => headOk h
      ((row.pat.drop 1).take 2)) && (row.pat.drop 3).take 4 = py "abc0" &&
      tailOk o.op (row.pat.drop 7)) ||
     (o.type = py "peripheral" && row.pat.take 7 = py "pppppp1" && tailOk o.op (row.pat.drop 7)) ||
     (o.type = py "print" && row.pat.take 7 = py "sxxabc1" && tailOk o.op (row.pat.drop 7)))

theorem rows_shape : ∀ row ∈ docTable, row.m ≠ py "PR" →
    (dget OPCODES row.m).any fun o => rowShape o row := by decide +kernel

/-- Every mnemonic has the rows its type asks for. -/
theorem rows_exist : ∀ p ∈ OPCODES,
    (p.2.type = py "maskable" → (∃ r ∈ docTable, r.m = p.1 ∧ r.form = py "masked") ∧
      ∃ r ∈ docTable, r.m = p.1 ∧ r.form = py "unmasked") ∧
    (p.2.type = py "simulator" → (∃ r ∈ docTable, r.m = p.1 ∧ r.form = py "direct") ∧
      ∃ r ∈ docTable, r.m = p.1 ∧ r.form = py "indexed") ∧
    (p.2.type ≠ py "maskable" → p.2.type ≠ py "simulator" →
      ∃ r ∈ docTable, r.m = p.1 ∧ r.form = []) := by decide +kernel

theorem isPos_ne {c : Char} (h : isPos c = true) :
    c ≠ 's' ∧ c ≠ 'm' ∧ c ≠ 'a' ∧ c ≠ 'b' ∧ c ≠ 'c' ∧ c ≠ 'p' ∧ c ≠ 'x' := by
  unfold isPos at h
  simp only [Bool.or_eq_true, decide_eq_true_eq] at h
  rcases h with rfl | rfl <;> decide

/-- The tail of a pattern agrees exactly with the low five bits of the opcode. -/
theorem fixed_tail {op : Int} {t : Str} (h : tailOk op t = true) {d7 d8 d9 d10 d11 : Int}
    (h7 : Bit d7) (h8 : Bit d8) (h9 : Bit d9) (h10 : Bit d10) (h11 : Bit d11) :
    (∀ q ∈ List.zip t [d7, d8, d9, d10, d11], (q.1 = '0' → q.2 = 0) ∧ (q.1 = '1' → q.2 = 1)) ↔
      op = 16 * d7 + 8 * d8 + 4 * d9 + 2 * d10 + d11 := by
  obtain ⟨c7, c8, c9, c10, c11, rfl, p7, p8, p9, p10, p11, e⟩ := tailOk_iff h
  simp only [List.zip_cons_cons, List.zip_nil_right, List.forall_mem_cons, List.not_mem_nil,
    false_implies, implies_true, and_true, pos_iff p7, pos_iff p8, pos_iff p9, pos_iff p10,
    pos_iff p11]
  rw [e]
  have g7 := bit_range h7
  have g8 := bit_range h8
  have g9 := bit_range h9
  have g10 := bit_range h10
  have g11 := bit_range h11
  have k7 := bit_range (pos_bit c7)
  have k8 := bit_range (pos_bit c8)
  have k9 := bit_range (pos_bit c9)
  have k10 := bit_range (pos_bit c10)
  have k11 := bit_range (pos_bit c11)
  constructor
  · rintro ⟨rfl, rfl, rfl, rfl, rfl⟩; rfl
  · intro h
    refine ⟨?_, ?_, ?_, ?_, ?_⟩ <;> omega

/-- The tail of a pattern has no letters. -/
theorem field_tail {op : Int} {t : Str} (h : tailOk op t = true) {l : Char} (hl : isPos l = false)
    (d : List Int) (n : Int) :
    (List.zip t d).foldl (fun n q => if q.1 = l then 2 * n + q.2 else n) n = n := by
  obtain ⟨c7, c8, c9, c10, c11, rfl, p7, p8, p9, p10, p11, -⟩ := tailOk_iff h
  have key : ∀ (t : Str) (d : List Int), (∀ c ∈ t, isPos c = true) →
      (List.zip t d).foldl (fun n q => if q.1 = l then 2 * n + q.2 else n) n = n := by
    intro t
    induction t with
    | nil => intro d _; simp
    | cons c t ih =>
      intro d hc
      cases d with
      | nil => simp
      | cons y d =>
        have hne : c ≠ l := by
          intro e; rw [← e, hc c (by simp)] at hl; cases hl
        simp only [List.zip_cons_cons, List.foldl_cons, if_neg hne]
        exact ih d fun x hx => hc x (by simp [hx])
  exact key _ _ (by simp [p7, p8, p9, p10, p11])

/-- The pattern of a row is its first seven positions and its tail. -/
theorem pat_split {pat h : Str} (e : pat.take 7 = h) : pat = h ++ pat.drop 7 := by
  rw [← e, List.take_append_drop]

section
variable {op : Int} {t : Str} (ht : tailOk op t = true)
  {d0 d1 d2 d3 d4 d5 d6 d7 d8 d9 d10 d11 : Int} (h0 : Bit d0) (h1 : Bit d1)
  (h2 : Bit d2) (h3 : Bit d3) (h4 : Bit d4) (h5 : Bit d5) (h6 : Bit d6) (h7 : Bit d7)
  (h8 : Bit d8) (h9 : Bit d9) (h10 : Bit d10) (h11 : Bit d11)
include ht h0 h1 h2 h3 h4 h5 h6 h7 h8 h9 h10 h11

/-- Agreement with a pattern, position by position. -/
theorem fixed_split (c0 c1 c2 c3 c4 c5 c6 : Char) :
    FixedAgree (c0 :: c1 :: c2 :: c3 :: c4 :: c5 :: c6 :: t)
      (sum12 d0 d1 d2 d3 d4 d5 d6 d7 d8 d9 d10 d11) ↔
    ((c0 = '0' → d0 = 0) ∧ (c0 = '1' → d0 = 1)) ∧ ((c1 = '0' → d1 = 0) ∧ (c1 = '1' → d1 = 1)) ∧
    ((c2 = '0' → d2 = 0) ∧ (c2 = '1' → d2 = 1)) ∧ ((c3 = '0' → d3 = 0) ∧ (c3 = '1' → d3 = 1)) ∧
    ((c4 = '0' → d4 = 0) ∧ (c4 = '1' → d4 = 1)) ∧ ((c5 = '0' → d5 = 0) ∧ (c5 = '1' → d5 = 1)) ∧
    ((c6 = '0' → d6 = 0) ∧ (c6 = '1' → d6 = 1)) ∧
      op = 16 * d7 + 8 * d8 + 4 * d9 + 2 * d10 + d11 := by
  unfold FixedAgree
  rw [digits12_sum h0 h1 h2 h3 h4 h5 h6 h7 h8 h9 h10 h11, ← fixed_tail ht h7 h8 h9 h10 h11]
  simp only [List.zip_cons_cons, List.forall_mem_cons]

/-- The number spelt by a letter, position by position. -/
theorem field_split (l : Char) (hl : isPos l = false) (c0 c1 c2 c3 c4 c5 c6 : Char) :
    fieldAt l (c0 :: c1 :: c2 :: c3 :: c4 :: c5 :: c6 :: t)
      (sum12 d0 d1 d2 d3 d4 d5 d6 d7 d8 d9 d10 d11) =
    (List.zip [c0, c1, c2, c3, c4, c5, c6] [d0, d1, d2, d3, d4, d5, d6]).foldl
      (fun n q => if q.1 = l then 2 * n + q.2 else n) 0 := by
  unfold fieldAt
  rw [digits12_sum h0 h1 h2 h3 h4 h5 h6 h7 h8 h9 h10 h11]
  simp only [List.zip_cons_cons, List.foldl_cons]
  rw [field_tail ht hl]
  simp only [List.zip_nil_right, List.foldl_nil]

end

theorem tail_range {op : Int} {t : Str} (ht : tailOk op t = true) : 0 ≤ op ∧ op < 32 := by
  obtain ⟨c7, c8, c9, c10, c11, -, -, -, -, -, -, e⟩ := tailOk_iff ht
  have k7 := bit_range (pos_bit c7)
  have k8 := bit_range (pos_bit c8)
  have k9 := bit_range (pos_bit c9)
  have k10 := bit_range (pos_bit c10)
  have k11 := bit_range (pos_bit c11)
  omega

theorem inst_masked {op : Int} {t : Str} (ht : tailOk op t = true) {code : Int}
    (hc : Fits 12 code) (s m : Int) :
    (FixedAgree (py "smmmmm1" ++ t) code ∧ fieldAt 's' (py "smmmmm1" ++ t) code = s ∧
      fieldAt 'm' (py "smmmmm1" ++ t) code = m) ↔
    Bit s ∧ Fits 5 m ∧ code = maskedCode s m 1 op := by
  obtain ⟨d0, d1, d2, d3, d4, d5, d6, d7, d8, d9, d10, d11, h0, h1, h2, h3, h4, h5, h6, h7, h8, h9,
    h10, h11, rfl⟩ := sum12_exists hc
  have e : py "smmmmm1" ++ t = 's' :: 'm' :: 'm' :: 'm' :: 'm' :: 'm' :: '1' :: t := rfl
  rw [e, fixed_split ht h0 h1 h2 h3 h4 h5 h6 h7 h8 h9 h10 h11,
    field_split ht h0 h1 h2 h3 h4 h5 h6 h7 h8 h9 h10 h11 _ (by decide),
    field_split ht h0 h1 h2 h3 h4 h5 h6 h7 h8 h9 h10 h11 _ (by decide)]
  have g := bit_range h0
  have g1 := bit_range h1
  have g2 := bit_range h2
  have g3 := bit_range h3
  have g4 := bit_range h4
  have g5 := bit_range h5
  have g6 := bit_range h6
  have g7 := bit_range h7
  have g8 := bit_range h8
  have g9 := bit_range h9
  have g10 := bit_range h10
  have g11 := bit_range h11
  have hop := tail_range ht
  simp [Fits, Bit, maskedCode, sum12]
  omega

theorem inst_unmasked {op h : Int} {t : Str} {c1 c2 : Char} (ht : tailOk op t = true)
    (hh : headOk h [c1, c2] = true) {code : Int} (hc : Fits 12 code) (s a b c : Int) :
    (FixedAgree ('s' :: c1 :: c2 :: (py "abc0" ++ t)) code ∧
      fieldAt 's' ('s' :: c1 :: c2 :: (py "abc0" ++ t)) code = s ∧
      fieldAt 'a' ('s' :: c1 :: c2 :: (py "abc0" ++ t)) code = a ∧
      fieldAt 'b' ('s' :: c1 :: c2 :: (py "abc0" ++ t)) code = b ∧
      fieldAt 'c' ('s' :: c1 :: c2 :: (py "abc0" ++ t)) code = c) ↔
    Bit s ∧ Bit a ∧ Bit b ∧ Bit c ∧ code = unmaskedCode s h a b c op := by
  obtain ⟨d0, d1, d2, d3, d4, d5, d6, d7, d8, d9, d10, d11, h0, h1, h2, h3, h4, h5, h6, h7, h8, h9,
    h10, h11, rfl⟩ := sum12_exists hc
  have e : 's' :: c1 :: c2 :: (py "abc0" ++ t) = 's' :: c1 :: c2 :: 'a' :: 'b' :: 'c' :: '0' :: t :=
    rfl
  simp only [headOk, Bool.and_eq_true, decide_eq_true_eq] at hh
  obtain ⟨⟨p1, p2⟩, eh⟩ := hh
  have n1 := isPos_ne p1
  have n2 := isPos_ne p2
  rw [e, fixed_split ht h0 h1 h2 h3 h4 h5 h6 h7 h8 h9 h10 h11, pos_iff p1, pos_iff p2,
    field_split ht h0 h1 h2 h3 h4 h5 h6 h7 h8 h9 h10 h11 _ (by decide),
    field_split ht h0 h1 h2 h3 h4 h5 h6 h7 h8 h9 h10 h11 _ (by decide),
    field_split ht h0 h1 h2 h3 h4 h5 h6 h7 h8 h9 h10 h11 _ (by decide),
    field_split ht h0 h1 h2 h3 h4 h5 h6 h7 h8 h9 h10 h11 _ (by decide)]
  have g0 := bit_range h0
  have g1 := bit_range h1
  have g2 := bit_range h2
  have g3 := bit_range h3
  have g4 := bit_range h4
  have g5 := bit_range h5
  have g6 := bit_range h6
  have g7 := bit_range h7
  have g8 := bit_range h8
  have g9 := bit_range h9
  have g10 := bit_range h10
  have g11 := bit_range h11
  have hop := tail_range ht
  have k1 := bit_range (pos_bit c1)
  have k2 := bit_range (pos_bit c2)
  simp [Bit, unmaskedCode, sum12, n1.1, n1.2.2.1, n1.2.2.2.1, n1.2.2.2.2.1, n2.1,
    n2.2.2.1, n2.2.2.2.1, n2.2.2.2.2.1]
  omega

theorem inst_peripheral {op : Int} {t : Str} (ht : tailOk op t = true) {code : Int}
    (hc : Fits 12 code) (p : Int) :
    (FixedAgree (py "pppppp1" ++ t) code ∧ fieldAt 'p' (py "pppppp1" ++ t) code = p) ↔
    Fits 6 p ∧ code = peripheralCode p 1 op := by
  obtain ⟨d0, d1, d2, d3, d4, d5, d6, d7, d8, d9, d10, d11, h0, h1, h2, h3, h4, h5, h6, h7, h8, h9,
    h10, h11, rfl⟩ := sum12_exists hc
  have e : py "pppppp1" ++ t = 'p' :: 'p' :: 'p' :: 'p' :: 'p' :: 'p' :: '1' :: t := rfl
  rw [e, fixed_split ht h0 h1 h2 h3 h4 h5 h6 h7 h8 h9 h10 h11,
    field_split ht h0 h1 h2 h3 h4 h5 h6 h7 h8 h9 h10 h11 _ (by decide)]
  have g0 := bit_range h0
  have g1 := bit_range h1
  have g2 := bit_range h2
  have g3 := bit_range h3
  have g4 := bit_range h4
  have g5 := bit_range h5
  have g6 := bit_range h6
  have g7 := bit_range h7
  have g8 := bit_range h8
  have g9 := bit_range h9
  have g10 := bit_range h10
  have g11 := bit_range h11
  have hop := tail_range ht
  simp [Fits, peripheralCode, sum12]
  omega

theorem inst_print {op : Int} {t : Str} (ht : tailOk op t = true) {code : Int}
    (hc : Fits 12 code) (s a b c : Int) :
    ((FixedAgree (py "sxxabc1" ++ t) code ∧ fieldAt 's' (py "sxxabc1" ++ t) code = s ∧
      fieldAt 'a' (py "sxxabc1" ++ t) code = a ∧ fieldAt 'b' (py "sxxabc1" ++ t) code = b ∧
      fieldAt 'c' (py "sxxabc1" ++ t) code = c) ∧ fieldAt 'x' (py "sxxabc1" ++ t) code = 0) ↔
    Bit s ∧ Bit a ∧ Bit b ∧ Bit c ∧ code = printCode s a b c 1 op := by
  obtain ⟨d0, d1, d2, d3, d4, d5, d6, d7, d8, d9, d10, d11, h0, h1, h2, h3, h4, h5, h6, h7, h8, h9,
    h10, h11, rfl⟩ := sum12_exists hc
  have e : py "sxxabc1" ++ t = 's' :: 'x' :: 'x' :: 'a' :: 'b' :: 'c' :: '1' :: t := rfl
  rw [e, fixed_split ht h0 h1 h2 h3 h4 h5 h6 h7 h8 h9 h10 h11,
    field_split ht h0 h1 h2 h3 h4 h5 h6 h7 h8 h9 h10 h11 _ (by decide),
    field_split ht h0 h1 h2 h3 h4 h5 h6 h7 h8 h9 h10 h11 _ (by decide),
    field_split ht h0 h1 h2 h3 h4 h5 h6 h7 h8 h9 h10 h11 _ (by decide),
    field_split ht h0 h1 h2 h3 h4 h5 h6 h7 h8 h9 h10 h11 _ (by decide),
    field_split ht h0 h1 h2 h3 h4 h5 h6 h7 h8 h9 h10 h11 _ (by decide)]
  have g0 := bit_range h0
  have g1 := bit_range h1
  have g2 := bit_range h2
  have g3 := bit_range h3
  have g4 := bit_range h4
  have g5 := bit_range h5
  have g6 := bit_range h6
  have g7 := bit_range h7
  have g8 := bit_range h8
  have g9 := bit_range h9
  have g10 := bit_range h10
  have g11 := bit_range h11
  have hop := tail_range ht
  simp [Bit, printCode, sum12]
  omega

theorem inst_simulator {code : Int} (hc : Fits 12 code) (s : Int) (ch : Char)
    (hch : (s = 0 ∧ ch = '0') ∨ (s = 1 ∧ ch = '1')) :
    (FixedAgree (ch :: py "xxxxxxxx111") code ∧ fieldAt 'x' (ch :: py "xxxxxxxx111") code = 0) ↔
    code = simulatorCode s 7 := by
  obtain ⟨d0, d1, d2, d3, d4, d5, d6, d7, d8, d9, d10, d11, h0, h1, h2, h3, h4, h5, h6, h7, h8, h9,
    h10, h11, rfl⟩ := sum12_exists hc
  have e : py "xxxxxxxx111" =
    ['x', 'x', 'x', 'x', 'x', 'x', 'x', 'x', '1', '1', '1'] := rfl
  unfold FixedAgree fieldAt
  rw [e, digits12_sum h0 h1 h2 h3 h4 h5 h6 h7 h8 h9 h10 h11]
  have g0 := bit_range h0
  have g1 := bit_range h1
  have g2 := bit_range h2
  have g3 := bit_range h3
  have g4 := bit_range h4
  have g5 := bit_range h5
  have g6 := bit_range h6
  have g7 := bit_range h7
  have g8 := bit_range h8
  have g9 := bit_range h9
  have g10 := bit_range h10
  have g11 := bit_range h11
  rcases hch with ⟨rfl, rfl⟩ | ⟨rfl, rfl⟩ <;> simp [simulatorCode, sum12] <;> omega

/-- A letter that does not occur spells 0. -/
theorem field_absent {l : Char} {pat : Str} (h : l ∉ pat) (code : Int) : fieldAt l pat code = 0 := by
  unfold fieldAt
  have key : ∀ (t : Str) (d : List Int), l ∉ t →
      (List.zip t d).foldl (fun n q => if q.1 = l then 2 * n + q.2 else n) 0 = 0 := by
    intro t
    induction t with
    | nil => intro d _; simp
    | cons c t ih =>
      intro d hc
      rw [List.mem_cons, not_or] at hc
      cases d with
      | nil => simp
      | cons y d =>
        have hne : c ≠ l := fun e => hc.1 e.symm
        simp only [List.zip_cons_cons, List.foldl_cons, if_neg hne]
        exact ih d hc.2
  exact key _ _ h

theorem tail_no_x {op : Int} {t : Str} (h : tailOk op t = true) : 'x' ∉ t := by
  obtain ⟨c7, c8, c9, c10, c11, rfl, p7, p8, p9, p10, p11, -⟩ := tailOk_iff h
  have := isPos_ne p7
  have := isPos_ne p8
  have := isPos_ne p9
  have := isPos_ne p10
  have := isPos_ne p11
  simp only [List.mem_cons, List.not_mem_nil, or_false, not_or]
  refine ⟨?_, ?_, ?_, ?_, ?_⟩ <;> apply Ne.symm <;> tauto

theorem unmasked_pat {pat : Str} {h : Int} (h1 : pat.take 1 = py "s")
    (h2 : headOk h ((pat.drop 1).take 2) = true) (h3 : (pat.drop 3).take 4 = py "abc0") :
    ∃ c1 c2, headOk h [c1, c2] = true ∧ pat = 's' :: c1 :: c2 :: (py "abc0" ++ pat.drop 7) := by
  match pat, h1, h2, h3 with
  | c0 :: c1 :: c2 :: rest, h1, h2, h3 =>
    refine ⟨c1, c2, h2, ?_⟩
    simp only [List.drop_succ_cons, List.drop_zero] at h3 ⊢
    rw [← h3, List.take_append_drop]
    have : c0 = 's' := by simpa using h1
    rw [this]
  | [_, _], _, h2, _ => simp [headOk] at h2
  | [_], _, h2, _ => simp [headOk] at h2
  | [], _, h2, _ => simp [headOk] at h2

/-- The instances of a documented row with its insignificant positions zero are exactly the codes of
the layout for the opcode record. -/
theorem inst_iff {row : DocRow} (hr : row ∈ docTable) (hm : row.m ≠ py "PR") {o : Opcode}
    (ho : dget OPCODES row.m = some o) {f : Form} (hf : f.Row row.form) (hs : f.Suits o.type)
    {code : Int} (hc : Fits 12 code) :
    (f.Instance row.pat code ∧ fieldAt 'x' row.pat code = 0) ↔
      f.InRange ∧ code = f.code (o.b23.getD 0) (o.b7.getD 0) o.op := by
  have sh := rows_shape row hr hm
  rw [ho] at sh
  simp only [Option.any_some] at sh
  have rk := (row_ok ho).2.2
  simp only at rk
  unfold rowShape at sh
  cases f with
  | masked s m =>
    simp only [Form.Row] at hf
    simp only [Form.Suits] at hs
    rw [if_pos hf] at sh
    simp only [Bool.and_eq_true, decide_eq_true_eq] at sh
    have h7 : o.b7 = some 1 := by
      rcases rk with h | h | h | h | h <;> first | exact h.2.2 | (rw [hs] at h; exact absurd h.1 (by decide))
    have e := pat_split sh.1.2
    have nx : 'x' ∉ py "smmmmm1" ++ row.pat.drop 7 := by
      rw [List.mem_append, not_or]; exact ⟨by decide, tail_no_x sh.2⟩
    rw [e, field_absent nx]
    simp only [Form.Instance, Form.InRange, Form.code, h7, Option.getD_some, and_true, and_assoc]
    exact inst_masked sh.2 hc s m
  | unmasked s a b c =>
    have hsh : row.pat.take 1 = py "s" ∧ (∃ h, o.b23 = some h ∧ headOk h ((row.pat.drop 1).take 2)) ∧
        (row.pat.drop 3).take 4 = py "abc0" ∧ tailOk o.op (row.pat.drop 7) := by
      simp only [Form.Row] at hf
      simp only [Form.Suits] at hs
      rcases hf with hf | hf <;> rw [hf] at sh
      · rw [if_neg (by decide), if_pos rfl] at sh
        simp only [Bool.and_eq_true, decide_eq_true_eq, Option.any_eq_true] at sh
        exact ⟨sh.1.1.1.2, sh.1.1.2, sh.1.2, sh.2⟩
      · rw [if_neg (by decide), if_neg (by decide), if_neg (by decide), if_neg (by decide)] at sh
        simp only [Bool.and_eq_true, Bool.or_eq_true, decide_eq_true_eq, Option.any_eq_true] at sh
        rcases sh.2 with (h | h) | h
        · exact ⟨h.1.1.1.2, h.1.1.2, h.1.2, h.2⟩
        · rw [h.1.1] at hs; rcases hs with hs | hs <;> exact absurd hs (by decide)
        · rw [h.1.1] at hs; rcases hs with hs | hs <;> exact absurd hs (by decide)
    obtain ⟨g1, ⟨h, hh, g2⟩, g3, g4⟩ := hsh
    obtain ⟨c1, c2, hd, e⟩ := unmasked_pat g1 g2 g3
    have nx : 'x' ∉ 's' :: c1 :: c2 :: (py "abc0" ++ row.pat.drop 7) := by
      simp only [headOk, Bool.and_eq_true] at hd
      have n1 := isPos_ne hd.1.1
      have n2 := isPos_ne hd.1.2
      simp only [List.mem_cons, List.mem_append, not_or]
      exact ⟨by decide, fun e => n1.2.2.2.2.2.2 e.symm, fun e => n2.2.2.2.2.2.2 e.symm, by decide,
        tail_no_x g4⟩
    rw [e, field_absent nx]
    simp only [Form.Instance, Form.InRange, Form.code, hh, Option.getD_some, and_true, and_assoc]
    exact inst_unmasked g4 hd hc s a b c
  | peripheral p =>
    simp only [Form.Row] at hf
    simp only [Form.Suits] at hs
    rw [hf, if_neg (by decide), if_neg (by decide), if_neg (by decide), if_neg (by decide), hs] at sh
    simp only [Bool.and_eq_true, Bool.or_eq_true, decide_eq_true_eq] at sh
    have h7 : o.b7 = some 1 := by
      rcases rk with h | h | h | h | h <;>
        first | exact h.2.2 | (rw [hs] at h; exact absurd h.1 (by decide))
    have sh' : row.pat.take 7 = py "pppppp1" ∧ tailOk o.op (row.pat.drop 7) = true := by
      rcases sh.2 with (h | h) | h
      · exact absurd h.1.1.1.1 (by decide)
      · exact ⟨h.1.2, h.2⟩
      · exact absurd h.1.1 (by decide)
    have e := pat_split sh'.1
    have nx : 'x' ∉ py "pppppp1" ++ row.pat.drop 7 := by
      rw [List.mem_append, not_or]; exact ⟨by decide, tail_no_x sh'.2⟩
    rw [e, field_absent nx]
    simp only [Form.Instance, Form.InRange, Form.code, h7, Option.getD_some, and_true]
    exact inst_peripheral sh'.2 hc p
  | print s a b c =>
    simp only [Form.Row] at hf
    simp only [Form.Suits] at hs
    rw [hf, if_neg (by decide), if_neg (by decide), if_neg (by decide), if_neg (by decide), hs] at sh
    simp only [Bool.and_eq_true, Bool.or_eq_true, decide_eq_true_eq] at sh
    have h7 : o.b7 = some 1 := by
      rcases rk with h | h | h | h | h <;>
        first | exact h.2.2 | (rw [hs] at h; exact absurd h.1 (by decide))
    have sh' : row.pat.take 7 = py "sxxabc1" ∧ tailOk o.op (row.pat.drop 7) = true := by
      rcases sh.2 with (h | h) | h
      · exact absurd h.1.1.1.1 (by decide)
      · exact absurd h.1.1 (by decide)
      · exact ⟨h.1.2, h.2⟩
    rw [pat_split sh'.1]
    simp only [Form.Instance, Form.InRange, Form.code, h7, Option.getD_some]
    rw [inst_print sh'.2 hc s a b c]
    simp only [and_assoc]
  | simulator s =>
    simp only [Form.Row] at hf
    simp only [Form.Suits] at hs
    have sh' : o.op = 7 ∧ ∃ ch, ((s = 0 ∧ ch = '0') ∨ (s = 1 ∧ ch = '1')) ∧
        row.pat = ch :: py "xxxxxxxx111" := by
      rcases hf with hf | hf <;> rw [hf.2] at sh
      · rw [if_neg (by decide), if_neg (by decide), if_pos rfl] at sh
        simp only [Bool.and_eq_true, decide_eq_true_eq] at sh
        exact ⟨sh.1.2, '0', Or.inl ⟨hf.1, rfl⟩, sh.2⟩
      · rw [if_neg (by decide), if_neg (by decide), if_neg (by decide), if_pos rfl] at sh
        simp only [Bool.and_eq_true, decide_eq_true_eq] at sh
        exact ⟨sh.1.2, '1', Or.inr ⟨hf.1, rfl⟩, sh.2⟩
    obtain ⟨h7, ch, hch, e⟩ := sh'
    rw [e]
    simp only [Form.Instance, Form.InRange, Form.code, h7]
    rw [inst_simulator hc s ch hch]
    have : Bit s := by unfold Bit; tauto
    tauto

/-- The signatures fit the types. -/
theorem classes_sig : ∀ p ∈ CLASSES, (dget OPCODES p.2.1).any fun o =>
    (o.type = py "maskable" ↔ p.2.2 = .maskable) ∧ (o.type = py "peripheral" ↔ p.2.2 = .peripheral) ∧
    (o.type = py "simulator" ↔ p.1 = py "Simulator") ∧
    (o.type = py "unmasked" → p.2.1 ≠ py "PR" → p.2.2 = .unmasked ∨ p.2.2 = .scientific) := by
  decide +kernel

/-- Constructing an instance of a class of the module with the operands of a form. -/
theorem construct_form {cls m : Str} {sig : Sig} {o : Opcode} (hc : dget CLASSES cls = some (m, sig))
    (ho : dget OPCODES m = some o) (hm : m ≠ py "PR") {f : Form} (hf : f.InRange)
    (hs : f.Suits o.type) :
    ∃ i, construct cls (formArgs f) = .ok i ∧
      i.value = f.code (o.b23.getD 0) (o.b7.getD 0) o.op := by
  have cs := classes_sig _ (dget_mem hc)
  simp only at cs
  rw [ho] at cs
  simp only [Option.any_some, decide_eq_true_eq] at cs
  obtain ⟨c1, c2, c3, c4⟩ := cs
  have rk := (row_ok ho).2.2
  simp only at rk
  cases f with
  | masked s k =>
    simp only [Form.Suits] at hs
    have h7 : o.b7 = some 1 := by
      rcases rk with h | h | h | h | h <;> first | exact h.2.2 | (rw [hs] at h; exact absurd h.1 (by decide))
    have e := c1.1 hs
    subst e
    obtain ⟨o', i, ho', hi, hv, -⟩ := C37_masked_classes cls m hc s k hf.1 hf.2
    rw [ho] at ho'; cases ho'
    exact ⟨i, hi, by rw [hv, h7]; rfl⟩
  | unmasked s a b c =>
    simp only [Form.Suits] at hs
    obtain ⟨o', h, i, ho', hh, hi, hv, -⟩ := C38_unmasked_classes cls m sig hc
      (by intro o' ho'; rw [ho] at ho'; cases ho'; rcases hs with h | h <;> rw [h] <;> decide)
      (by rcases hs with h | h
          · exact Or.inl (c1.1 h)
          · exact Or.inr (c4 h hm)) s a b c hf.1 hf.2.1 hf.2.2.1 hf.2.2.2
    rw [ho] at ho'; cases ho'
    exact ⟨i, hi, by rw [hv, hh]; rfl⟩
  | peripheral p =>
    simp only [Form.Suits] at hs
    have h7 : o.b7 = some 1 := by
      rcases rk with h | h | h | h | h <;> first | exact h.2.2 | (rw [hs] at h; exact absurd h.1 (by decide))
    have e := c2.1 hs
    subst e
    obtain ⟨o', i, ho', hi, hv, -⟩ := C39_other_classes.1 cls m p hc hf
    rw [ho] at ho'; cases ho'
    exact ⟨i, hi, by rw [hv, h7]; rfl⟩
  | print s a b c =>
    simp only [Form.Suits] at hs
    have h7 : o.b7 = some 1 := by
      rcases rk with h | h | h | h | h <;> first | exact h.2.2 | (rw [hs] at h; exact absurd h.1 (by decide))
    obtain ⟨i, hi, hv, -⟩ := C39_other_classes.2.1 cls m sig o s a b c hc ho hs hf.1 hf.2.1 hf.2.2.1
      hf.2.2.2
    exact ⟨i, hi, by rw [hv, h7]; rfl⟩
  | simulator s =>
    simp only [Form.Suits] at hs
    have h7 : o.op = 7 := by
      rcases rk with h | h | h | h | h <;> first | exact h.2.2.2 | (rw [hs] at h; exact absurd h.1 (by decide))
    have e := c3.1 hs
    subst e
    rcases hf with hf | hf <;> subst hf
    · obtain ⟨i, hi, hv⟩ := C39_other_classes.2.2.1
      exact ⟨i, hi, by rw [hv, h7]; rfl⟩
    · obtain ⟨i, hi, hv⟩ := C39_other_classes.2.2.2
      exact ⟨i, hi, by rw [hv, h7]; rfl⟩

/-- The codes of the layout have twelve bits. -/
theorem code_fits12 {m : Str} {o : Opcode} (ho : dget OPCODES m = some o) {f : Form}
    (hf : f.InRange) (hs : f.Suits o.type) : Fits 12 (f.code (o.b23.getD 0) (o.b7.getD 0) o.op) := by
  have h := tableCode_eq ho hs hf
  unfold tableCode at h
  simp only [ho, dgetE, py_bind_ok] at h
  cases hi : Instruction.init o (formArgs f).sequence (formArgs f).mask (formArgs f).a
      (formArgs f).b (formArgs f).c (formArgs f).paddr with
  | error e => rw [hi] at h; cases h
  | ok i =>
    rw [hi] at h
    simp only [py_bind_ok, py_pure, Except.ok.injEq] at h
    rw [← h]
    exact (C40_fits o _ _ _ _ _ _ i hi).1

end H800
