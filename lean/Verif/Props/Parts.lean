import Verif.Spec.Parts
import Verif.Props.Groups
import Verif.Props.TableII

/-!
Properties C204 and C205: where the parts of an instruction are in its word, and which bits of the word
designate the instruction.
-/

namespace H800

open Spec

/-! ### C204 -/

theorem forall₂_of_groups : ∀ (ps : List (Key × Nat × Int)) (W : Nat) {n : Numbering},
    List.Forall₂ (fun k g => Denotes n.code W k g.1 g.2) (ps.map (·.1)) (bitGroups (ps.map (·.2.1))) →
    (∀ p ∈ ps, Fits p.2.1 p.2.2) →
    List.Forall₂ Fits (ps.map (·.2.1)) (ps.map (·.2.2))
  | [], _, _, _, _ => .nil
  | p :: ps, W, n, h, hf => by
    simp only [List.map_cons, bitGroups] at h ⊢
    cases h with
    | cons _ h => exact .cons (hf p (by simp)) (forall₂_of_groups ps W h fun q hq => hf q (by simp [hq]))

/-- A word whose value is that of the parts has the parts, and is made by writing them. -/
theorem word_parts (ps : List (Key × Nat × Int)) (w : Word) (hw : IsWord w)
    (hn : ∀ p ∈ ps, 1 ≤ p.2.1 ∧ Fits p.2.1 p.2.2) (hs : (ps.map (·.2.1)).sum = 48)
    (hk : List.Forall₂ (fun k g => Denotes 3 48 k g.1 g.2) (ps.map (·.1)) (bitGroups (ps.map (·.2.1))))
    (hv : w.value = ofGroups (ps.map (·.2))) (hf : Fits 48 w.value) :
    (ps.map (·.1)).mapM w.data.getitem = .ok (ps.map (·.2.2)) ∧
    ∀ (w₀ : Word), IsWord w₀ → Fits 48 w₀.value → ∀ ws : List (Key × Int),
      ws.Perm (ps.map fun p => (p.1, p.2.2)) →
      ws.foldlM (fun b x => b.assign x.1 x.2) w₀.data = .ok w.data := by
  have hfits := forall₂_of_groups ps 48 (n := .msb1) hk fun p hp => (hn p hp).2
  have hz : (ps.map (·.2.1)).zip (ps.map (·.2.2)) = ps.map (·.2) := by
    rw [List.zip_map']
  have hz' : (ps.map (·.1)).zip (ps.map (·.2.2)) = ps.map fun p => (p.1, p.2.2) := by
    rw [List.zip_map']
  have hn' : ∀ n ∈ ps.map (·.2.1), 1 ≤ n := fun n h => by
    obtain ⟨p, hp, rfl⟩ := List.mem_map.1 h
    exact (hn p hp).1
  constructor
  · obtain ⟨xs, h1, h2, -, h4⟩ := C203_read w.data hw.2.2 _ _ hn' (hs.trans hw.1.symm)
      (by rw [hw.1, hw.2.1]; exact hk)
    have h5 := h4 (by rw [hw.1]; exact hf)
    have : xs = ps.map (·.2.2) := C203_unique _ _ _ h2 hfits (by rw [h5, hz, ← hv]; rfl)
    rw [h1, this]
  · intro w₀ hw₀ hf₀ ws hp
    obtain ⟨b', h1, h2, -⟩ := C203_write w₀.data hw₀.2.2 (by rw [hw₀.1]; exact hf₀) _ _ _ hn'
      (hs.trans hw₀.1.symm) (by rw [hw₀.1, hw₀.2.1]; exact hk) hfits ws (by rw [hz']; exact hp)
    rw [h1, h2, hz, ← hv]
    rw [isWord_eq hw, isWord_eq hw₀]
    rfl

theorem parts_ok {b23 op : Int} {f : Form} {a b c : Int} (hf : f.InRange) (hb : Fits 2 b23)
    (ho : Fits 5 op) (ha : Fits 12 a) (hbb : Fits 12 b) (hc : Fits 12 c) :
    (∀ p ∈ wordParts b23 op f a b c, 1 ≤ p.2.1 ∧ Fits p.2.1 p.2.2) ∧
    ((wordParts b23 op f a b c).map (·.2.1)).sum = 48 ∧
    List.Forall₂ (fun k g => Denotes 3 48 k g.1 g.2) ((wordParts b23 op f a b c).map (·.1))
      (bitGroups ((wordParts b23 op f a b c).map (·.2.1))) := by
  have h01 : Fits 1 0 ∧ Fits 1 1 ∧ Fits 2 0 ∧ Fits 8 0 ∧ Fits 3 7 := by decide
  have hp : ∀ p, Fits 6 p → Fits 3 (p / 8) ∧ Fits 3 (p % 8) := fun p h => by
    unfold Fits at *; omega
  refine ⟨?_, ?_, ?_⟩
  · cases f with
    | masked s m =>
      simp [wordParts, commandParts, bit_fits hf.1, hf.2, h01, ho, ha, hbb, hc]
    | unmasked s x y z =>
      simp [wordParts, commandParts, bit_fits hf.1, bit_fits hf.2.1, bit_fits hf.2.2.1,
        bit_fits hf.2.2.2, hb, h01, ho, ha, hbb, hc]
    | peripheral p =>
      simp [wordParts, commandParts, hp p hf, h01, ho, ha, hbb, hc]
    | print s x y z =>
      simp [wordParts, commandParts, bit_fits hf.1, bit_fits hf.2.1, bit_fits hf.2.2.1,
        bit_fits hf.2.2.2, h01, ho, ha, hbb, hc]
    | simulator s =>
      simp [wordParts, commandParts, bit_fits hf, h01, ha, hbb, hc]
  · cases f <;> rfl
  · cases f <;> simp [wordParts, commandParts, bitGroups, Denotes, weightExp]

/-- The number of the parts, for the code of the form. -/
theorem parts_value {b23 b7 op : Int} {f : Form} {a b c : Int} (hf : f.InRange)
    (h7 : formFlag f = 1 → b7 = 1) (hsim : ∀ s, f = .simulator s → op = 7) :
    f.code b23 b7 op * 2 ^ 36 + a * 2 ^ 24 + b * 2 ^ 12 + c =
      ofGroups ((wordParts b23 op f a b c).map (·.2)) := by
  cases f with
  | masked s m =>
    have := h7 rfl; subst this
    simp only [Form.code, maskedCode, wordParts, commandParts, ofGroups, List.cons_append,
      List.nil_append, List.map_cons, List.map_nil, List.foldl_cons, List.foldl_nil]
    omega
  | unmasked s x y z =>
    simp only [Form.code, unmaskedCode, wordParts, commandParts, ofGroups, List.cons_append,
      List.nil_append, List.map_cons, List.map_nil, List.foldl_cons, List.foldl_nil]
    omega
  | peripheral p =>
    have := h7 rfl; subst this
    simp only [Form.code, peripheralCode, wordParts, commandParts, ofGroups, List.cons_append,
      List.nil_append, List.map_cons, List.map_nil, List.foldl_cons, List.foldl_nil]
    omega
  | print s x y z =>
    have := h7 rfl; subst this
    simp only [Form.code, printCode, wordParts, commandParts, ofGroups, List.cons_append,
      List.nil_append, List.map_cons, List.map_nil, List.foldl_cons, List.foldl_nil]
    omega
  | simulator s =>
    have := hsim s rfl; subst this
    simp only [Form.code, simulatorCode, wordParts, commandParts, ofGroups, List.cons_append,
      List.nil_append, List.map_cons, List.map_nil, List.foldl_cons, List.foldl_nil]
    omega

theorem simulator_op {m : Str} {o : Opcode} (h : dget OPCODES m = some o)
    (ht : o.type = py "simulator") : o.op = 7 := by
  have : ∀ p ∈ OPCODES, p.2.type = py "simulator" → p.2.op = 7 := by decide +kernel
  exact this _ (dget_mem h) ht

/-- C204: an instruction that is made with its class and any operands of a form, put into an instruction
word with any addresses, has in the word exactly the parts that the manual describes, each at its bits;
and writing these parts to the bits of any word, in any order, makes the same word. -/
theorem C204_parts (cls m : Str) (sig : Sig) (o : Opcode) (hc : dget CLASSES cls = some (m, sig))
    (ho : dget OPCODES m = some o) (hm : m ≠ py "PR") (f : Form) (hf : f.InRange)
    (hs : f.Suits o.type) (a b c : Int) (ha : Fits 12 a) (hb : Fits 12 b) (hcc : Fits 12 c) :
    ∃ i w, construct cls (formArgs f) = .ok i ∧ InstructionWord.init i.value a b c = .ok w ∧
      let ps := wordParts (o.b23.getD 0) o.op f a b c
      (ps.map (·.1)).mapM w.data.getitem = .ok (ps.map (·.2.2)) ∧
      ∀ (w₀ : Word), IsWord w₀ → Fits 48 w₀.value → ∀ ws : List (Key × Int),
        ws.Perm (ps.map fun p => (p.1, p.2.2)) →
        ws.foldlM (fun b x => b.assign x.1 x.2) w₀.data = .ok w.data := by
  obtain ⟨i, hi, hv⟩ := construct_form hc ho hm hf hs
  have hfit : Fits 12 i.value := by rw [hv]; exact code_fits12 ho hf hs
  obtain ⟨w, h1, hw, h3, -⟩ := C16_instructionWord_packs i.value a b c hfit ha hb hcc
  obtain ⟨l23, -, lop⟩ := (row_ok ho).2.1
  obtain ⟨p1, p2, p3⟩ := parts_ok (f := f) hf (getD_fits l23) lop ha hb hcc
  refine ⟨i, w, hi, h1, word_parts _ w hw p1 p2 p3 ?_ ?_⟩
  · rw [h3, hv]
    exact parts_value hf (fun e => by rw [flag_b7 ho hs e]; rfl)
      (fun s e => simulator_op ho (by subst e; exact hs))
  · rw [h3]
    unfold Fits at *
    omega

/-- C204, the instruction without operands: the command code of Proceed is all zeros. -/
theorem C204_proceed (a b c : Int) (ha : Fits 12 a) (hb : Fits 12 b) (hcc : Fits 12 c) :
    ∃ i w, construct (py "Proceed") {} = .ok i ∧ InstructionWord.init i.value a b c = .ok w ∧
      [bits 1 12, bits 13 24, bits 25 36, bits 37 48].mapM w.data.getitem = .ok [0, a, b, c] := by
  obtain ⟨i, hi, hv, -⟩ := C38_proceed
  have hv0 : i.value = 0 := by rw [hv]; rfl
  have hfit : Fits 12 i.value := by rw [hv0]; decide
  obtain ⟨w, h1, hw, h3, -⟩ := C16_instructionWord_packs i.value a b c hfit ha hb hcc
  refine ⟨i, w, hi, h1, ?_⟩
  have h0 : Fits 12 0 := by decide
  exact (word_parts [(bits 1 12, 12, 0), (bits 13 24, 12, a), (bits 25 36, 12, b), (bits 37 48, 12, c)] w hw
    (by simp [h0, ha, hb, hcc]) rfl (by simp [bitGroups, Denotes, weightExp])
    (by
      rw [h3, hv0]
      simp only [ofGroups, List.map_cons, List.map_nil, List.foldl_cons, List.foldl_nil]
      omega)
    (by rw [h3]; unfold Fits at *; omega)).1

/-! ### C205 -/

/-- The bits of an instruction word. -/
theorem word_bits {w : Word} (hw : IsWord w) {s e : Int} {lo n : Nat} (hn : 1 ≤ n) (hl : lo + n ≤ 48)
    (h1 : 48 - s = lo + n - 1) (h2 : 48 - e = lo) : w.data.getitem (bits s e) = .ok (field w.value lo n) := by
  refine BitField.getitem_denotes hw.2.2 hn (by rw [hw.1]; exact hl) ?_
  rw [hw.1, hw.2.1]
  exact ⟨h1, h2⟩

/-- An instruction of the table in a word: the code of the form, and any addresses. -/
def InWord (m : Str) (f : Form) (w : Word) : Prop :=
  TableInstr m f ∧ ∃ v a b c, tableCode m f = .ok v ∧ Fits 12 a ∧ Fits 12 b ∧ Fits 12 c ∧
    InstructionWord.init v a b c = .ok w

/-- The operation code of a word, read off it. -/
theorem inWord_bits {m : Str} {f : Form} {w : Word} (h : InWord m f w) :
    ∃ o, dget OPCODES m = some o ∧ f.Suits o.type ∧
      w.data.getitem (bits 7 12) = .ok (formFlag f * 32 + o.op) ∧
      w.data.getitem (bits 2 3) = .ok (formTop (o.b23.getD 0) f / 8 % 4) ∧
      w.data.getitem (bits 10 12) = .ok (o.op % 8) := by
  obtain ⟨⟨o, ho, hs, hf⟩, v, a, b, c, hv, ha, hb, hc, hw⟩ := h
  have hfit := code_fits12 ho hf hs
  rw [tableCode_eq ho hs hf] at hv
  injection hv with hv
  obtain ⟨l23, -, lop⟩ := (row_ok ho).2.1
  obtain ⟨p1, p2, p3⟩ := form_parts (q := o.b7.getD 0) hf (getD_fits l23)
    (fun e => by rw [flag_b7 ho hs e]; rfl) lop
  rw [hv] at hfit p1 p2 p3
  simp only at p1 p3 lop
  have e36 : (v * 2 ^ 36 + a * 2 ^ 24 + b * 2 ^ 12 + c) / 2 ^ 36 = v := by
    unfold Fits at *
    omega
  have e45 : (v * 2 ^ 36 + a * 2 ^ 24 + b * 2 ^ 12 + c) / 2 ^ 45 = v / 64 / 8 := by
    unfold Fits at *
    omega
  obtain ⟨w', h1, h2, h3, -⟩ := C16_instructionWord_packs v a b c hfit ha hb hc
  rw [hw] at h1
  injection h1 with h1
  subst h1
  refine ⟨o, ho, hs, ?_, ?_, ?_⟩
  · rw [word_bits h2 (lo := 36) (n := 6) (by omega) (by omega) (by omega) (by omega), h3, field, e36]
    congr 1
    omega
  · rw [word_bits h2 (lo := 45) (n := 2) (by omega) (by omega) (by omega) (by omega), h3, field, e45, p1]
    rfl
  · rw [word_bits h2 (lo := 36) (n := 3) (by omega) (by omega) (by omega) (by omega), h3, field, e36]
    congr 1
    unfold Fits at *
    omega

/-- C205, the property as stated: a word with an instruction, and a second one in which the bits of the
operation code of the first are the same; then both are the same instruction (the three mnemonics for
printing are one). -/
def C205_statement : Prop :=
  ∀ m f w m' f' w', InWord m f w → InWord m' f' w' →
    (opKeys f).mapM w.data.getitem = (opKeys f).mapM w'.data.getitem → m = m' ∨ BothPrint m m'

/-- The word of an instruction. -/
theorem inWord_of {m : Str} {f : Form} {v : Int} (h : TableInstr m f) (hv : tableCode m f = .ok v)
    (hf : Fits 12 v) : ∃ w, InWord m f w ∧ InstructionWord.init v 0 0 0 = .ok w := by
  obtain ⟨w, hw, -⟩ := C16_instructionWord_packs v 0 0 0 hf (by decide) (by decide) (by decide)
  exact ⟨w, ⟨h, v, 0, 0, 0, hv, by decide, by decide, by decide, hw⟩, hw⟩

/-- C205 fails: unmasked NA and FNN have the same operation code. -/
theorem C205_refuted : ¬ C205_statement := by
  intro h
  obtain ⟨-, ⟨f, h1, h2, h3, h4⟩, -⟩ := C42_refuted
  obtain ⟨w, i1, e1⟩ := inWord_of h1 h3 (by decide)
  obtain ⟨w', i2, e2⟩ := inWord_of h2 h4 (by decide)
  rw [e1] at e2
  injection e2 with e2
  subst e2
  have := h _ _ _ _ _ _ i1 i2 rfl
  revert this
  unfold BothPrint
  decide

theorem sim_low : ∀ p ∈ OPCODES, p.2.op % 8 = 7 → p.2.type = py "simulator" ∧ p.1 = py "S" := by
  decide +kernel

theorem unmasked_b23 {m : Str} {o : Opcode} (ho : dget OPCODES m = some o)
    (h : o.type = py "maskable" ∨ o.type = py "unmasked") : ∃ v, o.b23 = some v ∧ Fits 2 v := by
  obtain ⟨-, ⟨hl, -⟩, hty⟩ := row_ok ho
  simp only at hty hl
  have : o.b23.isSome := by
    rcases hty with g | g | g | g | g <;> rcases h with h | h <;> simp_all
  obtain ⟨v, hv⟩ := Option.isSome_iff_exists.1 this
  exact ⟨v, hv, hl v hv⟩

theorem top_b23 {b v : Int} (s x y z : Int) (hx : Bit x) (hy : Bit y) (hz : Bit z)
    (hv : Fits 2 v) (h : b = v) : formTop b (.unmasked s x y z) / 8 % 4 = v := by
  subst h
  simp only [formTop]
  unfold Fits Bit at *
  omega

/-- C205, exactly: the bits of the operation code are the same in two words iff both hold the same
instruction in the same form, or one of the clashes: two prints, or NA (unmasked) and FNN. The full
statement fails only at the latter. -/
theorem C205_designates_partial (m m' : Str) (f f' : Form) (w w' : Word) (h : InWord m f w)
    (h' : InWord m' f' w') :
    (opKeys f).mapM w.data.getitem = (opKeys f).mapM w'.data.getitem ↔
      SameKind f f' ∧ (m = m' ∨ Clash f m m') := by
  obtain ⟨o, ho, hs, k1, k2, k3⟩ := inWord_bits h
  obtain ⟨o', ho', hs', k1', k2', k3'⟩ := inWord_bits h'
  have hf : f.InRange := by obtain ⟨⟨_, _, _, hf⟩, _⟩ := h; exact hf
  have hf' : f'.InRange := by obtain ⟨⟨_, _, _, hf⟩, _⟩ := h'; exact hf
  have lop := (row_ok ho).2.1.2.2
  have lop' := (row_ok ho').2.1.2.2
  simp only [Fits] at lop lop'
  have mem := dget_mem ho
  have mem' := dget_mem ho'
  have hsix : formFlag f = 1 → formFlag f * 32 + o.op = formFlag f' * 32 + o'.op →
      formFlag f' = 1 ∧ ((m, o) = (m', o') ∨ (o.type = py "print" ∧ o'.type = py "print")) := by
    intro e e'
    have : formFlag f' = 1 ∧ o.op = o'.op := by
      have : formFlag f' = 0 ∨ formFlag f' = 1 := by cases f' <;> simp [formFlag]
      omega
    exact ⟨this.1, sep_masked _ mem _ mem' this.2 (flag_b7 ho hs e) (flag_b7 ho' hs' this.1)⟩
  -- the forms with six bits
  have hback : ∀ (hk : SameKind f f'), (m = m' ∨ Clash f m m') → o.op = o'.op ∧ formFlag f = formFlag f' ∧
      (o.b23.getD 0 = o'.b23.getD 0) := by
    intro hk hm
    have hfl : formFlag f = formFlag f' := by
      cases f <;> cases f' <;> first | rfl | exact absurd hk (by simp [SameKind])
    rcases hm with rfl | ⟨hp, hp'⟩ | ⟨-, ⟨rfl, rfl⟩ | ⟨rfl, rfl⟩⟩
    · rw [ho] at ho'
      cases ho'
      exact ⟨rfl, hfl, rfl⟩
    · have key : ∀ p ∈ OPCODES, p.1 ∈ [py "PRA", py "PRD", py "PRO"] → p.2.op = 6 ∧ p.2.b23 = none := by
        decide +kernel
      have e := key _ mem hp
      have e' := key _ mem' hp'
      simp only at e e'
      exact ⟨e.1.trans e'.1.symm, hfl, by rw [e.2, e'.2]⟩
    all_goals
      have key : ∀ p ∈ OPCODES, p.1 ∈ [py "NA", py "FNN"] → p.2.op = 12 ∧ p.2.b23 = some 2 := by
        decide +kernel
      have e := key _ mem (by simp)
      have e' := key _ mem' (by simp)
      simp only at e e'
      exact ⟨e.1.trans e'.1.symm, hfl, by rw [e.2, e'.2]⟩
  have hprint : ∀ {n : Str} {r : Opcode}, (n, r) ∈ OPCODES → r.type = py "print" →
      n ∈ [py "PRA", py "PRD", py "PRO"] := fun hmem ht => by
    have := (print_rows _ hmem ht).1
    simpa using this
  cases f with
  | masked s k =>
    simp only [opKeys, List.mapM_cons, List.mapM_nil, k1, k1', py_bind_ok, py_pure, Except.ok.injEq,
      List.cons.injEq, and_true]
    constructor
    · intro e
      obtain ⟨hfl, hr⟩ := hsix rfl e
      have hs : o.type = py "maskable" := hs
      rcases hr with hr | hr
      · cases hr
        refine ⟨?_, .inl rfl⟩
        cases f' <;> simp only [formFlag, Form.Suits, hs] at hfl hs' <;>
          trivial
      · rw [hs] at hr
        exact absurd hr.1 (by decide)
    · intro e
      obtain ⟨e1, e2, -⟩ := hback e.1 e.2
      rw [e1, e2]
  | peripheral p =>
    simp only [opKeys, List.mapM_cons, List.mapM_nil, k1, k1', py_bind_ok, py_pure, Except.ok.injEq,
      List.cons.injEq, and_true]
    constructor
    · intro e
      obtain ⟨hfl, hr⟩ := hsix rfl e
      have hs : o.type = py "peripheral" := hs
      rcases hr with hr | hr
      · cases hr
        refine ⟨?_, .inl rfl⟩
        cases f' <;> simp only [formFlag, Form.Suits, hs] at hfl hs' <;>
          trivial
      · rw [hs] at hr
        exact absurd hr.1 (by decide)
    · intro e
      obtain ⟨e1, e2, -⟩ := hback e.1 e.2
      rw [e1, e2]
  | print s a b c =>
    simp only [opKeys, List.mapM_cons, List.mapM_nil, k1, k1', py_bind_ok, py_pure, Except.ok.injEq,
      List.cons.injEq, and_true]
    constructor
    · intro e
      obtain ⟨hfl, hr⟩ := hsix rfl e
      have hs : o.type = py "print" := hs
      have ht' : o'.type = py "print" := by
        rcases hr with hr | hr
        · cases hr; exact hs
        · exact hr.2
      refine ⟨?_, .inr (.inl ⟨hprint mem hs, hprint mem' ht'⟩)⟩
      cases f' <;> simp only [formFlag, Form.Suits, ht'] at hfl hs' <;>
        trivial
    · intro e
      obtain ⟨e1, e2, -⟩ := hback e.1 e.2
      rw [e1, e2]
  | unmasked s a b c =>
    simp only [opKeys, List.mapM_cons, List.mapM_nil, k1, k1', k2, k2', py_bind_ok, py_pure,
      Except.ok.injEq, List.cons.injEq, and_true]
    obtain ⟨v, hv, hv2⟩ := unmasked_b23 ho hs
    rw [top_b23 (v := v) s a b c hf.2.1 hf.2.2.1 hf.2.2.2 hv2 (by rw [hv]; rfl)]
    constructor
    · rintro ⟨e1, e2⟩
      have hfl : formFlag f' = 0 ∧ o.op = o'.op := by
        have : formFlag f' = 0 ∨ formFlag f' = 1 := by cases f' <;> simp [formFlag]
        have h0 : formFlag (.unmasked s a b c) = 0 := rfl
        omega
      cases f' with
      | masked => exact absurd hfl.1 (by simp [formFlag])
      | peripheral => exact absurd hfl.1 (by simp [formFlag])
      | print => exact absurd hfl.1 (by simp [formFlag])
      | simulator s' =>
        have := simulator_op ho' hs'
        have := (sim_low _ mem (by simp only; omega)).1
        simp only at this
        rcases hs with hs | hs <;> (rw [hs] at this; exact absurd this (by decide))
      | unmasked s' a' b' c' =>
        obtain ⟨v', hv', hv2'⟩ := unmasked_b23 ho' hs'
        rw [top_b23 (v := v') s' a' b' c' hf'.2.1 hf'.2.2.1 hf'.2.2.2 hv2' (by rw [hv']; rfl)] at e1
        refine ⟨trivial, ?_⟩
        rcases sep_unmasked _ mem _ mem' hfl.2 (by simp only [hv, hv', e1]) (by simp [hv]) with e | e
        · cases e; exact .inl rfl
        · exact .inr (.inr ⟨⟨_, _, _, _, rfl⟩, e⟩)
    · rintro ⟨hk, hm⟩
      obtain ⟨e1, e2, e3⟩ := hback hk hm
      cases f' with
      | unmasked s' a' b' c' =>
        refine ⟨?_, by rw [e1, e2]⟩
        rw [top_b23 (v := v) s' a' b' c' hf'.2.1 hf'.2.2.1 hf'.2.2.2 hv2 (by rw [← e3, hv]; rfl)]
      | masked => exact absurd hk (by simp [SameKind])
      | peripheral => exact absurd hk (by simp [SameKind])
      | print => exact absurd hk (by simp [SameKind])
      | simulator => exact absurd hk (by simp [SameKind])
  | simulator s =>
    simp only [opKeys, List.mapM_cons, List.mapM_nil, k3, k3', py_bind_ok, py_pure,
      Except.ok.injEq, List.cons.injEq, and_true]
    have h7 := simulator_op ho hs
    constructor
    · intro e
      have h1 := sim_low _ mem (by simp only; omega)
      have h2 := sim_low _ mem' (by simp only; omega)
      simp only at h1 h2
      refine ⟨?_, .inl (h1.2.trans h2.2.symm)⟩
      cases f' <;> simp only [Form.Suits, h2.1] at hs' <;>
        trivial
    · intro e
      rw [(hback e.1 e.2).1]

/-! ### Examples -/

/-- Binary add under mask 5, from the cosequence counter, with three addresses. -/
example : dget CLASSES (py "BinaryAdd") = some (py "BA", .maskable) ∧
    (∃ i w, construct (py "BinaryAdd") (formArgs (.masked 1 5)) = .ok i ∧
      InstructionWord.init i.value 1 2 3 = .ok w ∧
      [.idx 1, bits 2 6, .idx 7, bits 8 12, bits 13 24, bits 25 36, bits 37 48].mapM w.data.getitem =
        .ok [1, 5, 1, 0o11, 1, 2, 3]) :=
  ⟨by decide +kernel, _, _, rfl, rfl, by decide +kernel⟩

/-- Read forward from device 2 of channel 5. -/
example : ∃ i w, construct (py "ReadForward") (formArgs (.peripheral 0o52)) = .ok i ∧
      InstructionWord.init i.value 1 2 3 = .ok w ∧
      [bits 1 3, bits 4 6, .idx 7, bits 8 12].mapM w.data.getitem = .ok [5, 2, 1, 0o32] :=
  ⟨_, _, rfl, rfl, by decide +kernel⟩

/-- Words with instructions of the table. -/
example : (∃ w, InWord (py "RT") (.unmasked 1 0 1 0) w) ∧ ∃ w, InWord (py "S") (.simulator 1) w := by
  have h1 : TableInstr (py "RT") (.unmasked 1 0 1 0) :=
    ⟨⟨py "RT", py "RecordTransfer", some 3, some 0, 24, py "unmasked"⟩, by decide, by decide, by decide⟩
  have h2 : TableInstr (py "S") (.simulator 1) :=
    ⟨⟨py "S", py "Simulator", none, none, 7, py "simulator"⟩, by decide, by decide, by decide⟩
  obtain ⟨w, hw, -⟩ := inWord_of (v := 0o7230) h1 (by decide) (by decide)
  obtain ⟨w', hw', -⟩ := inWord_of (v := 0o4007) h2 (by decide) (by decide)
  exact ⟨⟨w, hw⟩, w', hw'⟩

end H800
