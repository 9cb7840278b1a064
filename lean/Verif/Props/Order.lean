import Verif.Spec.Order
import Verif.Props.CommandTools
import Verif.Props.Status

/-!
C170: the order of all that is printed, and what has been printed when a tool stops at a file that
cannot be read.
-/

namespace H800

open Spec
open scoped Classical

theorem told_append {α : Type} (a b : List (VMsg α)) :
    (a ++ b).map told = a.map told ++ b.map told := List.map_append

theorem told_msgs {α : Type} (l : List α) : (l.map VMsg.msg).map told = l.map .inr := by
  rw [List.map_map]; rfl

theorem told_notes {α : Type} {out : List (VMsg α)} {m : List Note}
    (h : out.map extra = m.map fun n => some (.note n)) :
    out.map told = m.map fun n => .inl (.note n) := by
  induction out generalizing m with
  | nil => cases m with
    | nil => rfl
    | cons n m => cases h
  | cons x out ih =>
    cases m with
    | nil => cases h
    | cons n m =>
      rw [List.map_cons, List.map_cons] at h
      injection h with h1 h2
      rw [List.map_cons, List.map_cons, ih h2]
      congr 1
      cases x <;> simp [extra] at h1 <;> simp [told, h1]

/-- Reading a deck: what is told. -/
theorem deckV_told {α : Type} {v : Bool} {fs : FileSystem} {fuel : Nat} {f : Str}
    {out : List (VMsg α)} {r : Py (List CodeCard)} (h : deckCardsV v fs fuel f = (out, r)) :
    (∀ cards, r = .ok cards → f ≠ [] ∧ ∃ m src, Tells fs f true m ∧ Expands fs f src ∧
      cards = src.map srcCard ∧ out.map told = notesIf (v = true) m) ∧
    (∀ e, r = .error e → e ≠ .recursionError → Broken fs (v = true) f (out.map told)) := by
  have e := deckCardsV_snd (α := α) v fs fuel f
  have e' := deckCardsV_snd (α := α) true fs fuel f
  rw [h] at e
  simp only at e
  have ho : v = false → out = [] := by
    intro hv
    subst hv
    by_cases hne : f = []
    · subst hne; cases h; rfl
    · have := ((C150_reading (α := α) fs fuel f hne).2.2 false).2
      rw [h] at this
      exact this
  cases hV : deckCardsV (α := α) true fs fuel f with
  | mk o r' =>
    rw [hV] at e'
    simp only at e'
    rw [← e'] at e
    subst e
    have hvo : v = true → out = o := by
      intro hv; subst hv; rw [hV] at h; cases h; rfl
    constructor
    · rintro cards rfl
      obtain ⟨hne, src, h1, rfl⟩ := deckCards_ok e'.symm
      obtain ⟨m, hm, hmo⟩ := (C150_reading (α := α) fs fuel f hne).1 _ _ hV
      refine ⟨hne, m, src, hm, h1, rfl, ?_⟩
      unfold notesIf
      cases v with
      | true => rw [if_pos rfl, hvo rfl]; exact told_notes hmo
      | false => rw [if_neg (by simp), ho rfl]; rfl
    · rintro e rfl hr
      by_cases hne : f = []
      · left
        refine ⟨.inl hne, ?_⟩
        subst hne; cases h; rfl
      · rcases (C150_reading (α := α) fs fuel f hne).2.1 _ _ hV hr with ⟨h1, h2⟩ | ⟨m, hm, hmo⟩
        · left
          refine ⟨.inr h1, ?_⟩
          cases v with
          | true => rw [hvo rfl, h2]; rfl
          | false => rw [ho rfl]; rfl
        · right
          refine ⟨hne, m, hm, ?_⟩
          unfold notesIf
          cases v with
          | true => rw [if_pos rfl, hvo rfl]; exact told_notes hmo
          | false => rw [if_neg (by simp), ho rfl]; rfl

theorem blocks_nil {α : Type} {fs : FileSystem} {v : Prop}
    {about : Str → List Src → List (Told α) → Prop} : Blocks fs v about [] [] :=
  ⟨[], .nil, rfl⟩

theorem blocks_cons {α : Type} {fs : FileSystem} {v : Prop}
    {about : Str → List Src → List (Told α) → Prop} {f : Str} {files : List Str}
    {b c : List (Told α)} (h : Block fs v about f b) (h' : Blocks fs v about files c) :
    Blocks fs v about (f :: files) (b ++ c) := by
  obtain ⟨bs, h1, rfl⟩ := h'
  exact ⟨b :: bs, .cons h h1, by rw [List.flatten_cons]⟩

theorem until_first {α : Type} {fs : FileSystem} {v : Prop}
    {about : Str → List Src → List (Told α) → Prop} {f : Str} {files : List Str}
    {b : List (Told α)} (h : Broken fs v f b) : BlocksUntil fs v about (f :: files) b :=
  ⟨[], f, files, [], b, rfl, blocks_nil, h, rfl⟩

theorem until_cons {α : Type} {fs : FileSystem} {v : Prop}
    {about : Str → List Src → List (Told α) → Prop} {f : Str} {files : List Str}
    {b c : List (Told α)} (h : Block fs v about f b) (h' : BlocksUntil fs v about files c) :
    BlocksUntil fs v about (f :: files) (b ++ c) := by
  obtain ⟨pre, g, post, b₁, b₂, rfl, h1, h2, rfl⟩ := h'
  exact ⟨f :: pre, g, post, b ++ b₁, b₂, rfl, blocks_cons h h1, h2, by rw [List.append_assoc]⟩

theorem eachLine_map {α : Type} {about : Src → List (Told α) → Prop} (f : Str) (src : List Src)
    (g : Src → List (Told α)) (h : ∀ s, about s (g s)) : EachLine about f src (src.flatMap g) := by
  refine ⟨src.map g, ?_, by rw [List.flatMap_def]⟩
  rw [List.forall₂_map_right_iff, List.forall₂_same]
  exact fun s _ => h s

/-! ### check-instructions -/

/-- What is printed for one card. -/
def cardTold (v : Bool) (p : Bool) (c : CodeCard) : List (Told CheckMsg) :=
  (if p && (instOf c).isSome then [.inr (.card c)] else []) ++
    (if v && star c && (instOf c).isSome then [told (.starred c)] else []) ++
    (if badInst c then [.inr (.invalid c)] else [])

theorem cardTold_says (v p : Bool) (s : Src) :
    CheckLine (v = true) (p = true) s (cardTold v p (srcCard s)) := by
  refine ⟨srcCard s, cardOf_srcCard s, ?_⟩
  unfold cardTold
  have h0 : (instOf (srcCard s)).isSome = true ↔ ∃ i, HasInstr s i := by
    rw [Option.isSome_iff_exists]
    exact exists_congr fun i => instOf_iff s i
  have h1 : (p && (instOf (srcCard s)).isSome) = true ↔ p = true ∧ ∃ i, HasInstr s i := by
    rw [Bool.and_eq_true, h0]
  have h2 : (v && star (srcCard s) && (instOf (srcCard s)).isSome) = true ↔
      v = true ∧ Starred s ∧ ∃ i, HasInstr s i := by
    rw [Bool.and_eq_true, Bool.and_eq_true, h0, and_assoc]
    refine and_congr Iff.rfl (and_congr ?_ Iff.rfl)
    unfold star
    rw [decide_eq_true_eq]
    exact starred_iff s
  congr 1
  · congr 1
    · by_cases h : p = true ∧ ∃ i, HasInstr s i
      · rw [if_pos h, if_pos (h1.2 h)]
      · rw [if_neg h, if_neg fun e => h (h1.1 e)]
    · by_cases h : v = true ∧ Starred s ∧ ∃ i, HasInstr s i
      · rw [if_pos h, if_pos (h2.2 h)]; rfl
      · rw [if_neg h, if_neg fun e => h (h2.1 e)]
  · by_cases h : BadInstr s
    · rw [if_pos h, if_pos ((badInst_iff s).2 h)]
    · rw [if_neg h, if_neg fun e => h ((badInst_iff s).1 e)]

theorem checkStepV_told (v : Bool) (opts : CheckOpts) (st : CheckStateV) (c : CodeCard)
    (hk : st.instrtab.map (·.1) = INSTRUCTIONS) :
    (checkStepV v opts st c).instrtab.map (·.1) = INSTRUCTIONS ∧
    (checkStepV v opts st c).out.map told = st.out.map told ++ cardTold v opts.printOpcodes c := by
  unfold checkStepV cardTold badInst
  simp only
  cases hi : c.instruction with
  | none => simp [instOf, hi, hk]
  | some i =>
    cases i with
    | nil => simp [instOf, hi, hk]
    | cons x xs =>
      have hio : instOf c = some (x :: xs) := by simp [instOf, hi]
      simp only [hio]
      by_cases hs : c.column8 = some (py "*")
      · have hst : star c = true := by simp [star, hs]
        simp only [hs, hst, if_true]
        refine ⟨hk, ?_⟩
        cases v <;> cases opts.printOpcodes <;> simp [told]
      · have hst : star c = false := by simp [star, hs]
        simp only [hs, hst, if_false]
        cases hd : dget st.instrtab (x :: xs) with
        | none =>
          have hn : INSTRUCTIONS.contains (x :: xs) = false := by
            rw [← Bool.not_eq_true, List.contains_iff_mem, ← hk]
            exact dget_none.1 hd
          simp only [hn]
          refine ⟨hk, ?_⟩
          cases v <;> cases opts.printOpcodes <;> simp [told]
        | some n =>
          have hn : INSTRUCTIONS.contains (x :: xs) = true := by
            rw [List.contains_iff_mem, ← hk]
            exact dget_isSome.1 (by rw [hd]; rfl)
          simp only [hn, if_true, ite_self]
          refine ⟨?_, ?_⟩
          · rw [dset_keys_same hd]; exact hk
          · cases v <;> cases opts.printOpcodes <;> simp [told]

theorem checkFoldV_told (v : Bool) (opts : CheckOpts) (cs : List CodeCard) (st : CheckStateV)
    (hk : st.instrtab.map (·.1) = INSTRUCTIONS) :
    (cs.foldl (checkStepV v opts) st).instrtab.map (·.1) = INSTRUCTIONS ∧
    (cs.foldl (checkStepV v opts) st).out.map told =
      st.out.map told ++ cs.flatMap (cardTold v opts.printOpcodes) := by
  induction cs generalizing st with
  | nil => exact ⟨hk, by simp⟩
  | cons c cs ih =>
    obtain ⟨h1, h2⟩ := checkStepV_told v opts st c hk
    obtain ⟨h3, h4⟩ := ih _ h1
    refine ⟨h3, ?_⟩
    rw [List.foldl_cons, h4, h2, List.flatMap_cons, List.append_assoc]

theorem checkFilesV_told (v : Bool) (fs : FileSystem) (fuel : Nat) (opts : CheckOpts)
    (files : List Str) (st st' : CheckStateV) (r : Py Unit)
    (hk : st.instrtab.map (·.1) = INSTRUCTIONS)
    (h : checkFilesV v fs fuel opts files st = (st', r)) :
    (r = .ok () → ∃ b, Blocks fs (v = true)
        (EachLine (CheckLine (v = true) (opts.printOpcodes = true))) files b ∧
      st'.out.map told = st.out.map told ++ b) ∧
    (∀ e, r = .error e → e ≠ .recursionError → ∃ b, BlocksUntil fs (v = true)
        (EachLine (CheckLine (v = true) (opts.printOpcodes = true))) files b ∧
      st'.out.map told = st.out.map told ++ b) := by
  induction files generalizing st with
  | nil =>
    cases h
    exact ⟨fun _ => ⟨[], blocks_nil, by simp⟩, fun _ he => by cases he⟩
  | cons f files ih =>
    rw [checkFilesV] at h
    cases hd : deckCardsV (α := CheckMsg) v fs fuel f with
    | mk o q =>
      rw [hd] at h
      obtain ⟨d1, d2⟩ := deckV_told hd
      cases q with
      | error e =>
        cases h
        refine ⟨(nomatch ·), fun e' he hr => ?_⟩
        cases he
        exact ⟨o.map told, until_first (d2 _ rfl hr), by rw [told_append]⟩
      | ok cards =>
        obtain ⟨hne, m, src, h1, h2, rfl, h3⟩ := d1 _ rfl
        simp only at h
        obtain ⟨k1, k2⟩ := checkFoldV_told v opts (src.map srcCard) { st with out := st.out ++ o } hk
        have hb : Block fs (v = true) (EachLine (CheckLine (v = true) (opts.printOpcodes = true))) f
            (notesIf (v = true) m ++
              (src.map srcCard).flatMap (cardTold v opts.printOpcodes)) := by
          refine ⟨hne, m, src, _, h1, h2, ?_, rfl⟩
          rw [List.flatMap_map]
          exact eachLine_map f src _ fun s => cardTold_says v _ s
        obtain ⟨i1, i2⟩ := ih _ k1 h
        rw [k2, told_append, h3] at i1 i2
        refine ⟨fun hr => ?_, fun e he hr => ?_⟩
        · obtain ⟨b, b1, b2⟩ := i1 hr
          exact ⟨_, blocks_cons hb b1, by rw [b2]; simp only [List.append_assoc]⟩
        · obtain ⟨b, b1, b2⟩ := i2 e he hr
          exact ⟨_, until_cons hb b1, by rw [b2]; simp only [List.append_assoc]⟩

theorem freqLinesRun_stops {opts : CheckOpts} {n : Nat} {d : Dict Str Nat} {l : List CheckMsg}
    {e : PyErr} (h : freqLinesRun opts n d = (l, .error e)) :
    n = 0 ∧ l = [] ∧ e = .zeroDivision := by
  induction d generalizing l with
  | nil => cases h
  | cons p d ih =>
    obtain ⟨i, k⟩ := p
    rw [freqLinesRun] at h
    split at h
    · split at h
      · rename_i h0
        cases h
        exact ⟨h0, rfl, rfl⟩
      · rename_i h0
        cases hq : freqLinesRun opts n d with
        | mk l' r =>
          rw [hq] at h
          cases h
          exact absurd (ih hq).1 h0
    · exact ih h

theorem freqLinesRun_zero {opts : CheckOpts} {d : Dict Str Nat} {l : List CheckMsg}
    {e : PyErr} (h : freqLinesRun opts 0 d = (l, .error e)) :
    opts.unused = false ∨ ∃ p ∈ d, p.2 ≠ 0 := by
  induction d generalizing l with
  | nil => cases h
  | cons p d ih =>
    obtain ⟨i, k⟩ := p
    rw [freqLinesRun] at h
    split at h
    · rename_i hc
      rw [Bool.or_eq_true, Bool.and_eq_true] at hc
      rcases hc with ⟨-, hc⟩ | hc
      · exact .inr ⟨_, List.mem_cons_self, by simpa using hc⟩
      · exact .inl (by simpa using hc)
    · rcases ih h with h | ⟨p, hp, hk⟩
      · exact .inl h
      · exact .inr ⟨p, List.mem_cons_of_mem _ hp, hk⟩

theorem number_zero {src : List Src} {p q : Src → Prop} (h : number src p = 0)
    (hq : ∀ s, q s → p s) : number src q = 0 := by
  unfold number at h ⊢
  rw [List.length_eq_zero_iff, List.filter_eq_nil_iff] at h ⊢
  intro s hs hqs
  exact h s hs (decide_eq_true (hq s (of_decide_eq_true hqs)))

theorem checkEnd_report {os : List Opt} {opts : CheckOpts} {src : List Src} {st : CheckState}
    (hoc : opts.count = decide (Given os (py "count")))
    (hos : opts.sort = decide (Given os (py "sort")))
    (hou : opts.unused = decide (Given os (py "unused")))
    (h2 : st.linecount = src.length)
    (h3 : st.instrcount = number src (fun s => ∃ i, HasInstr s i))
    (h4 : st.errcount = number src BadInstr)
    (h5 : FreqsAre src (opts.unused = true) (opts.sort = true) (shownFreqs opts st))
    (h6 : UnusedAre src (unusedNames st)) : CheckEnd os src (reportMsgs opts st) := by
  refine ⟨shownFreqs opts st, unusedNames st, ?_, h6, ?_⟩
  · simpa only [hou, hos, decide_eq_true_eq] using h5
  · rw [← h2, ← h3, ← h4]
    unfold reportMsgs checkTail shownFreqs unusedNames
    rw [hoc, hou]
    simp [List.map_map, Function.comp_def]

/-- C170: check-instructions deals with the files one after the other: with `--verbose` it tells what is
told while the file is read, and then for each line prints what is to be said about it; the report
comes at the end. It stops at the first file that cannot be read, with what has been told until then;
if it divides by zero only the numbers of lines and instructions have been printed. -/
theorem C170_check (fs : FileSystem) (fuel : Nat) (argv args : List Str) (os : List Opt)
    (out : List (VMsg CheckMsg)) (r : Py Unit)
    (hm : Means CHECK_INSTRUCTIONS_OPTS argv os args) (hh : ¬ ∃ o ∈ os, o.dest = none)
    (hf : args ≠ []) (hr : r ≠ .error .recursionError)
    (h : checkInstructionsCmd fs fuel argv = (out, r)) :
    (∃ b src tail, Blocks fs (Given os (py "verbose"))
        (EachLine (CheckLine (Given os (py "verbose")) (Given os (py "printOpcodes")))) args b ∧
      Sources fs args src ∧ out.map told = b ++ tail.map .inr ∧
      (r = .ok () ∧ CheckEnd os src tail ∨
       r = .error .zeroDivision ∧ tail = [.lines src.length, .total 0] ∧ Given os (py "count") ∧
         ¬ Given os (py "unused") ∧ ∀ s ∈ src, ∀ i, ¬ HasInstr s i)) ∨
    (∃ e, r = .error e) ∧ BlocksUntil fs (Given os (py "verbose"))
      (EachLine (CheckLine (Given os (py "verbose")) (Given os (py "printOpcodes")))) args
      (out.map told) := by
  rcases means_values C153_good.1 hm with ⟨e, -⟩ | ⟨-, v, e, hv⟩
  · exact absurd e hh
  unfold checkInstructionsCmd at h
  rw [e] at h
  simp only at h
  rw [hv (py "verbose") (by decide), hv (py "all") (by decide), hv (py "count") (by decide),
    hv (py "invalid") (by decide), hv (py "printOpcodes") (by decide),
    hv (py "sort") (by decide), hv (py "unused") (by decide)] at h
  generalize ho : (⟨decide (Given os (py "all")), decide (Given os (py "count")),
    decide (Given os (py "invalid")), decide (Given os (py "printOpcodes")),
    decide (Given os (py "sort")), decide (Given os (py "unused"))⟩ : CheckOpts) = opts at h
  have hoc : opts.count = decide (Given os (py "count")) := by rw [← ho]
  have hop : opts.printOpcodes = decide (Given os (py "printOpcodes")) := by rw [← ho]
  have hos : opts.sort = decide (Given os (py "sort")) := by rw [← ho]
  have hou : opts.unused = decide (Given os (py "unused")) := by rw [← ho]
  generalize hvv : decide (Given os (py "verbose")) = vv at h
  have hp1 : (vv = true) = Given os (py "verbose") := by rw [← hvv, decide_eq_true_eq]
  have hp2 : (opts.printOpcodes = true) = Given os (py "printOpcodes") := by
    rw [hop, decide_eq_true_eq]
  have hk : CheckStateV.init.instrtab.map (·.1) = INSTRUCTIONS := by
    have : CheckState.init.instrtab.map (·.1) = INSTRUCTIONS := by
      rw [init_tab, List.map_map]
      exact List.map_id' _
    exact this
  unfold checkInstructionsV at h
  rw [if_neg (list_args hf)] at h
  have h0 : CheckRel vv CheckStateV.init CheckState.init := ⟨rfl, rfl, rfl, rfl, adds_nil⟩
  obtain ⟨⟨h1, h2, h3, h4, -⟩, h6⟩ := checkFilesV_rel vv fs fuel opts args h0
  cases hx : checkFilesV vv fs fuel opts args CheckStateV.init with
  | mk s q =>
    obtain ⟨k1, k2⟩ := checkFilesV_told vv fs fuel opts args _ _ _ hk hx
    rw [hp1, hp2] at k1 k2
    rw [hx] at h h1 h2 h3 h4 h6
    generalize hq : checkFilesRun fs fuel opts args CheckState.init = t at h1 h2 h3 h4 h6
    obtain ⟨t, q'⟩ := t
    simp only at h1 h2 h3 h4 h6
    subst h6
    cases q with
    | error e =>
      right
      simp only at h
      cases h
      obtain ⟨b, b1, b2⟩ := k2 e rfl (fun e' => hr (by rw [e']))
      refine ⟨⟨e, rfl⟩, ?_⟩
      rw [b2]
      exact b1
    | ok u =>
      left
      cases u
      obtain ⟨b, b1, b2⟩ := k1 rfl
      have hst := checkFilesRun_ok.1 hq
      obtain ⟨src, g0, -, g2, g3, g4, g5, g6⟩ := report_says hst
      have hend := checkEnd_report hoc hos hou g2 g3 g4 g5 g6
      simp only at h
      have ht : ∀ o, checkTail opts ⟨s.errcount, s.linecount, s.instrcount, s.instrtab, o⟩ =
          checkTail opts t := by
        intro o
        unfold checkTail
        rw [h1, h4]
      rw [ht, h2, h3, h4] at h
      have hbo : s.out.map told = b := by rw [b2]; rfl
      by_cases hc : opts.count = true
      · rw [if_pos hc] at h
        cases hfr : freqLinesRun opts t.instrcount
            (if opts.sort = true then freqtab t.instrtab else byName t.instrtab) with
        | mk l q =>
          rw [hfr] at h
          cases q with
          | error e =>
            cases h
            obtain ⟨z1, rfl, rfl⟩ := freqLinesRun_stops hfr
            have hnone : ∀ s ∈ src, ∀ i, ¬ HasInstr s i := by
              intro s hs i hi
              rw [g3] at z1
              unfold number at z1
              rw [List.length_eq_zero_iff, List.filter_eq_nil_iff] at z1
              exact z1 s hs (decide_eq_true ⟨i, hi⟩)
            refine ⟨b, src, [.lines src.length, .total 0], b1, g0, ?_, .inr ⟨rfl, rfl, ?_, ?_, hnone⟩⟩
            · rw [told_append, told_msgs, hbo, g2, z1]
            · rw [hoc] at hc; exact of_decide_eq_true hc
            · intro hu
              rw [← decide_eq_true_eq (p := Given os (py "unused")), ← hou] at hu
              rw [z1] at hfr
              rcases freqLinesRun_zero hfr with h0 | ⟨p, hp, hz⟩
              · rw [hu] at h0; cases h0
              · have hsh : p ∈ shownFreqs opts t := by
                  unfold shownFreqs
                  exact List.mem_filter.2 ⟨hp, by simp [hz]⟩
                have := ((g5.1 p.1 p.2).1 hsh).2.1
                rw [number_zero (z1 ▸ g3).symm (fun s hs => ⟨_, hs.2⟩)] at this
                exact hz this
          | ok u =>
            cases u
            simp only [Prod.mk.injEq] at h
            obtain ⟨h, rfl⟩ := h
            refine ⟨b, src, reportMsgs opts t, b1, g0, ?_, .inl ⟨rfl, hend⟩⟩
            rw [← h, told_append, told_msgs, hbo]
            unfold reportMsgs
            rw [if_pos hc, freqLinesRun_shape hfr]
      · rw [if_neg hc] at h
        simp only [Prod.mk.injEq] at h
        obtain ⟨h, rfl⟩ := h
        refine ⟨b, src, reportMsgs opts t, b1, g0, ?_, .inl ⟨rfl, hend⟩⟩
        rw [← h, told_append, told_msgs, hbo]
        unfold reportMsgs
        rw [if_neg hc, List.nil_append]

/-! ### list-instructions -/

theorem listStepV_eq (v details : Bool) (opcode : Str) (c : CodeCard) :
    listStepV v details opcode c = if listed opcode c then [.msg (listLine details c)] else
      if v && star c && c.operation.any (· ≠ []) then [.starred c] else [] := by
  have hl : listed opcode c = match c.operation with
      | none => false
      | some [] => false
      | some operation =>
        if c.column8 = some (py "*") then false
        else
          let instruction := remove (strip operation) ' '
          let instruction :=
            if instruction.contains ',' && !opcode.contains ',' then splitFirst instruction ','
            else instruction
          instruction = opcode || (hasSuffix (py ",") opcode && hasPrefix opcode instruction) := rfl
  unfold listStepV
  cases ho : c.operation with
  | none => rw [ho] at hl; simp only at hl; rw [hl]; simp
  | some i =>
    cases i with
    | nil => rw [ho] at hl; simp only at hl; rw [hl]; simp
    | cons x xs =>
      rw [ho] at hl
      simp only at hl ⊢
      by_cases hc : c.column8 = some (py "*")
      · rw [if_pos hc] at hl
        rw [if_pos hc, hl]
        cases v <;> simp [star, hc]
      · rw [if_neg hc] at hl
        rw [if_neg hc, ← hl]
        have hst : star c = false := by simp [star, hc]
        simp [hst]

theorem listLine_lists (details : Bool) (s : Src) :
    ListsLine (details = true) s (listLine details (srcCard s)) := by
  have hpad : ∀ (w : Nat) (s : Str), LeftIn w s (padRight w s) := by
    intro w s
    refine ⟨w - s.length, rfl, fun h => ?_, fun h => by omega⟩
    simp [padRight]; omega
  have hpadl : ∀ (w : Nat) (s : Str), RightIn w s (padLeft ' ' w s) := by
    intro w s
    refine ⟨w - s.length, rfl, fun h => ?_, fun h => by omega⟩
    simp [padLeft]; omega
  refine ⟨fun hd => ?_, fun hd => ?_⟩
  · simp [listLine, hd, srcCard, remove]
  · refine ⟨padRight 48 s.file, padLeft ' ' 6 (numeral 10 s.num), hpad _ _, hpadl _ _, ?_⟩
    have hs : ¬ ((s.num : Int) < 0) := by omega
    simp [listLine, hd, srcCard, remove, pyStr, hs]

theorem listStepV_told (v details : Bool) (opcode : Str) (s : Src) :
    ListLineTold (v = true) (details = true) opcode s
      ((listStepV v details opcode (srcCard s)).map told) := by
  rw [listStepV_eq]
  by_cases h : Matches opcode s
  · left
    rw [if_pos ((listed_iff opcode s).2 h)]
    exact ⟨h, _, listLine_lists details s, rfl⟩
  · right
    rw [if_neg fun e => h ((listed_iff opcode s).1 e)]
    refine ⟨h, ?_⟩
    have h1 : (v && star (srcCard s) && (srcCard s).operation.any (· ≠ [])) = true ↔
        v = true ∧ Starred s ∧ ∃ o, HasOp s o := by
      rw [Bool.and_eq_true, Bool.and_eq_true, and_assoc, star_iff]
      refine and_congr Iff.rfl (and_congr Iff.rfl ?_)
      constructor
      · intro h
        cases ho : (srcCard s).operation with
        | none => rw [ho] at h; cases h
        | some o => exact ⟨o, (op_iff s o).1 ho⟩
      · rintro ⟨o, ho⟩
        rw [(op_iff s o).2 ho]
        have := ho.2.1
        simpa using this
    by_cases hs : v = true ∧ Starred s ∧ ∃ o, HasOp s o
    · rw [if_pos hs, if_pos (h1.2 hs)]; rfl
    · rw [if_neg hs, if_neg fun e => hs (h1.1 e)]; rfl

theorem listFilesV_told (v : Bool) (fs : FileSystem) (fuel : Nat) (details : Bool) (opcode : Str)
    (files : List Str) (out : List (VMsg Str)) (r : Py Unit)
    (h : listFilesV v fs fuel details opcode files = (out, r)) :
    (r = .ok () → Blocks fs (v = true)
      (EachLine (ListLineTold (v = true) (details = true) opcode)) files (out.map told)) ∧
    (∀ e, r = .error e → e ≠ .recursionError → BlocksUntil fs (v = true)
      (EachLine (ListLineTold (v = true) (details = true) opcode)) files (out.map told)) := by
  induction files generalizing out with
  | nil => cases h; exact ⟨fun _ => blocks_nil, fun _ he => by cases he⟩
  | cons f files ih =>
    rw [listFilesV] at h
    cases hd : deckCardsV (α := Str) v fs fuel f with
    | mk o q =>
      rw [hd] at h
      obtain ⟨d1, d2⟩ := deckV_told hd
      cases q with
      | error e =>
        cases h
        refine ⟨(nomatch ·), fun e' he hr => ?_⟩
        cases he
        exact until_first (d2 _ rfl hr)
      | ok cards =>
        obtain ⟨hne, m, src, h1, h2, rfl, h3⟩ := d1 _ rfl
        simp only at h
        cases hl : listFilesV v fs fuel details opcode files with
        | mk l q =>
        rw [hl] at h
        cases h
        have hb : Block fs (v = true) (EachLine (ListLineTold (v = true) (details = true) opcode)) f
            ((o ++ (src.map srcCard).flatMap (listStepV v details opcode)).map told) := by
          refine ⟨hne, m, src, _, h1, h2, ?_, by rw [told_append, h3]⟩
          rw [List.flatMap_map, List.map_flatMap]
          exact eachLine_map f src _ fun s => listStepV_told v details opcode s
        obtain ⟨i1, i2⟩ := ih _ hl
        rw [told_append]
        exact ⟨fun hr => blocks_cons hb (i1 hr), fun e he hr => until_cons hb (i2 e he hr)⟩

/-- C170: list-instructions deals with the files one after the other: with `--verbose` it tells what is
told while the file is read, and then for each line that matches prints it, and for each starred line
with an operation, if `--verbose` is given, that it is skipped. It stops at the first file that cannot
be read. -/
theorem C170_list (fs : FileSystem) (fuel : Nat) (argv files : List Str) (opcode p : Str)
    (os : List Opt) (out : List (VMsg Str)) (r : Py Unit)
    (hm : Means LIST_INSTRUCTIONS_OPTS argv os (opcode :: files))
    (hh : ¬ ∃ o ∈ os, o.dest = none) (hpre : BeforeFirst ',' opcode p) (hp : p ∈ INSTRUCTIONS)
    (hr : r ≠ .error .recursionError) (h : listInstructionsCmd fs fuel argv = (out, r)) :
    (r = .ok () ∧ Blocks fs (Given os (py "verbose"))
      (EachLine (ListLineTold (Given os (py "verbose")) (Given os (py "details")) opcode)) files
      (out.map told)) ∨
    (∃ e, r = .error e) ∧ BlocksUntil fs (Given os (py "verbose"))
      (EachLine (ListLineTold (Given os (py "verbose")) (Given os (py "details")) opcode)) files
      (out.map told) := by
  rcases means_values C153_good.2.2.2.1 hm with ⟨e, -⟩ | ⟨-, v, e, hv⟩
  · exact absurd e hh
  unfold listInstructionsCmd at h
  rw [e] at h
  simp only at h
  rw [hv (py "verbose") (by decide), hv (py "details") (by decide)] at h
  have hcom : (if opcode.contains ',' = true then splitFirst opcode ',' else opcode) = p := by
    rw [← beforeFirst_unique hpre]
    split
    · rfl
    · rename_i h; rw [splitFirst_id (by rw [← contains_comma]; exact h)]
  unfold listInstructionsV at h
  simp only [hcom] at h
  rw [if_neg (by rw [List.contains_iff_mem]; exact not_not.2 hp)] at h
  obtain ⟨h1, h2⟩ := listFilesV_told _ fs fuel _ opcode files out r h
  simp only [decide_eq_true_eq] at h1 h2
  cases r with
  | ok u => exact .inl ⟨rfl, h1 rfl⟩
  | error e => exact .inr ⟨⟨e, rfl⟩, h2 e rfl fun e' => hr (by rw [e'])⟩

/-! ### The symbol tools -/

theorem buildFilesV_told (v : Bool) (upper : Str → Str) (fs : FileSystem) (fuel : Nat)
    (announce : Bool) (files : List Str) (hp : ∀ f ∈ files, PlainSeg (splitFirst f '.'))
    (t t' : Symtab) (ht : Plain4 t) (n n' : Nat) (out : List (VMsg SymMsg)) (r : Py Unit)
    (h : buildFilesV v upper fs fuel announce files t n = (out, t', n', r)) :
    (r = .ok () → Blocks fs (v = true) (ReportTold upper announce) files (out.map told)) ∧
    (∀ e, r = .error e → e ≠ .recursionError →
      BlocksUntil fs (v = true) (ReportTold upper announce) files (out.map told)) := by
  induction files generalizing t n out with
  | nil => cases h; exact ⟨fun _ => blocks_nil, fun _ he => by cases he⟩
  | cons f files ih =>
    rw [buildFilesV] at h
    have hbr := (buildV_run v upper fs fuel f t).1
    unfold buildV at h hbr
    cases hd : deckCardsV (α := SymMsg) v fs fuel f with
    | mk o q =>
      rw [hd] at h hbr
      obtain ⟨d1, d2⟩ := deckV_told hd
      cases q with
      | error e =>
        cases h
        refine ⟨(nomatch ·), fun e' he hr => ?_⟩
        cases he
        exact until_first (d2 _ rfl hr)
      | ok cards =>
        obtain ⟨hne, m, src, h1, h2, rfl, h3⟩ := d1 _ rfl
        have hdc : deckCards fs fuel f = .ok (src.map srcCard) := by
          rw [← deckCardsV_snd (α := SymMsg) v fs fuel f, hd]
        obtain ⟨p1, -, p3⟩ := buildRun_pure upper (hp f List.mem_cons_self) ht hdc
        simp only at h hbr
        rw [p1] at hbr
        cases hc : buildCardsRun upper (splitFirst f '.') (src.map srcCard) ⟨t, py "1", 0, []⟩ with
        | mk bs q =>
        rw [hc] at h hbr
        obtain ⟨hbs, hq⟩ := Prod.mk.inj hbr
        subst hbs hq
        simp only at h
        cases hl : buildFilesV v upper fs fuel announce files (buildPure upper t f src).symtab
            (n + (buildPure upper t f src).errcount) with
        | mk o2 q =>
        rw [hl] at h
        cases h
        obtain ⟨M, hM⟩ : ∃ M : List SymMsg, M = ((buildPure upper t f src).diags.map fun d =>
            SymMsg.diag d) ++ (if announce then
              [.fileErrs f (buildPure upper t f src).errcount] else []) := ⟨_, rfl⟩
        have hb : Block fs (v = true) (ReportTold upper announce) f
            (notesIf (v = true) m ++ M.map .inr) :=
          ⟨hne, m, src, _, h1, h2, ⟨M, hM ▸ buildPure_report upper announce t f src, rfl⟩, rfl⟩
        obtain ⟨i1, i2⟩ := ih (fun g hg => hp g (List.mem_cons_of_mem _ hg)) _ p3 _ _ hl
        have ho : (((o ++ ((buildPure upper t f src).diags.map (fun d : Diag =>
            VMsg.msg (SymMsg.diag d)))) ++
            (if announce then [.msg (.fileErrs f (buildPure upper t f src).errcount)] else []) ++
              o2 : List (VMsg SymMsg))).map told =
            (notesIf (v = true) m ++ M.map .inr) ++
              o2.map told := by
          rw [told_append, told_append, told_append, h3, hM, List.map_append, List.append_assoc,
            List.append_assoc, List.append_assoc, List.append_assoc]
          congr 1
          congr 1
          · rw [List.map_map, List.map_map]; rfl
          · cases announce <;> rfl
        rw [ho]
        exact ⟨fun hr => blocks_cons hb (i1 hr), fun e he hr => until_cons hb (i2 e he hr)⟩

theorem summary_check (extract : Str → List Str → Nat → List Str) (t : Symtab) (xs : List Str) (p : Prop)
    [Decidable p] (k : Nat) :
    ∀ msg ∈ xs.map SymMsg.complexOnly ++ undefinedMsgs extract t xs ++ (if p then [SymMsg.total k] else []),
      Summary msg := by
  intro msg h
  simp only [List.mem_append, List.mem_map] at h
  rcases h with (⟨x, -, rfl⟩ | h) | h
  · simp [Summary]
  · unfold undefinedMsgs at h
    split at h
    · simp only [List.cons_append, List.mem_cons, List.mem_append, List.mem_map, List.not_mem_nil,
        or_false] at h
      rcases h with rfl | ⟨q, -, rfl⟩ | rfl
      · simp [Summary]
      · split <;> simp [Summary]
      · simp [Summary]
    · cases h
  · split at h
    · rw [List.mem_singleton] at h
      subst h
      simp [Summary]
    · cases h

theorem summary_list (l : List ListLine) (p : Prop) [Decidable p] (k : Nat) :
    ∀ msg ∈ l.map SymMsg.listing ++ (if p then [SymMsg.listing (.errors k)] else []), Summary msg := by
  intro msg h
  simp only [List.mem_append, List.mem_map] at h
  rcases h with ⟨x, -, rfl⟩ | h
  · simp [Summary]
  · split at h
    · rw [List.mem_singleton] at h
      subst h
      simp [Summary]
    · cases h

theorem summary_find (symbol : Str) (n : Nat) (l : List SymMsg) (hl : ∀ msg ∈ l, ∃ r, msg = .found r) :
    ∀ msg ∈ List.replicate n (SymMsg.undefined symbol) ++ l, Summary msg := by
  intro msg h
  rw [List.mem_append] at h
  rcases h with h | h
  · rw [List.eq_of_mem_replicate h]
    simp [Summary]
  · obtain ⟨r, rfl⟩ := hl msg h
    simp [Summary]

/-- C170: check-symbols deals with the files one after the other: with `--verbose` it tells what is
told while the file is read, and then reports its errors; all else comes at the end. It stops at the first file that cannot be read. -/
theorem C170_check_symbols (upper : Str → Str) (extract : Str → List Str → Nat → List Str)
    (fs : FileSystem) (fuel : Nat) (argv files : List Str) (os : List Opt)
    (out : List (VMsg SymMsg)) (r : Py Unit) (hm : Means CHECK_SYMBOLS_OPTS argv os files)
    (hh : ¬ ∃ o ∈ os, o.dest = none) (hf : files ≠ []) (hp : PlainFiles files)
    (hr : r ≠ .error .recursionError) (h : checkSymbolsCmd upper extract fs fuel argv = (out, r)) :
    (r = .ok () ∧ ∃ b, ∃ tail : List SymMsg, Blocks fs (Given os (py "verbose")) (ReportTold upper true) files b ∧
      out.map told = b ++ tail.map .inr ∧ ∀ msg ∈ tail, Summary msg) ∨
    (∃ e, r = .error e) ∧ BlocksUntil fs (Given os (py "verbose")) (ReportTold upper true) files
      (out.map told) := by
  rcases means_values C153_good.2.1 hm with ⟨e, -⟩ | ⟨-, v, e, hv⟩
  · exact absurd e hh
  unfold checkSymbolsCmd at h
  rw [e] at h
  simp only at h
  rw [hv (py "verbose") (by decide), hv (py "complex") (by decide)] at h
  unfold checkSymbolsV at h
  rw [if_neg (list_args hf)] at h
  cases hb : buildFilesV (decide (Given os (py "verbose"))) upper fs fuel true files [] 0 with
  | mk o q =>
  obtain ⟨t, n, q⟩ := q
  obtain ⟨k1, k2⟩ := buildFilesV_told _ upper fs fuel true files (plainFiles_iff.1 hp) _ _ plain4_nil
    _ _ _ _ hb
  simp only [decide_eq_true_eq] at k1 k2
  rw [hb] at h
  cases q with
  | error e =>
    cases h
    exact .inr ⟨⟨e, rfl⟩, k2 e rfl fun e' => hr (by rw [e'])⟩
  | ok u =>
    cases h
    exact .inl ⟨rfl, _, _, k1 rfl, by rw [told_append, told_msgs], summary_check _ _ _ _ _⟩

/-- C170: the same for list-symbols. -/
theorem C170_list_symbols (upper : Str → Str)
    (fs : FileSystem) (fuel : Nat) (argv files : List Str) (os : List Opt)
    (out : List (VMsg SymMsg)) (r : Py Unit) (hm : Means VERBOSE_OPTS argv os files)
    (hh : ¬ ∃ o ∈ os, o.dest = none) (hf : files ≠ []) (hp : PlainFiles files)
    (hr : r ≠ .error .recursionError) (h : listSymbolsCmd upper fs fuel argv = (out, r)) :
    (r = .ok () ∧ ∃ b, ∃ tail : List SymMsg, Blocks fs (Given os (py "verbose")) (ReportTold upper false) files b ∧
      out.map told = b ++ tail.map .inr ∧ ∀ msg ∈ tail, Summary msg) ∨
    (∃ e, r = .error e) ∧ BlocksUntil fs (Given os (py "verbose")) (ReportTold upper false) files
      (out.map told) := by
  rcases means_values C153_good.2.2.2.2.1 hm with ⟨e, -⟩ | ⟨-, v, e, hv⟩
  · exact absurd e hh
  unfold listSymbolsCmd at h
  rw [e] at h
  simp only at h
  rw [hv (py "verbose") (by decide)] at h
  unfold listSymbolsV at h
  rw [if_neg (list_args hf)] at h
  cases hb : buildFilesV (decide (Given os (py "verbose"))) upper fs fuel false files [] 0 with
  | mk o q =>
  obtain ⟨t, n, q⟩ := q
  obtain ⟨k1, k2⟩ := buildFilesV_told _ upper fs fuel false files (plainFiles_iff.1 hp) _ _ plain4_nil
    _ _ _ _ hb
  simp only [decide_eq_true_eq] at k1 k2
  have hrun := (buildFilesV_run (decide (Given os (py "verbose"))) upper fs fuel false files [] 0).1
  rw [hb] at h hrun
  cases q with
  | error e =>
    cases h
    exact .inr ⟨⟨e, rfl⟩, k2 e rfl fun e' => hr (by rw [e'])⟩
  | ok u =>
    rcases buildFilesRun_cases upper (fs := fs) (fuel := fuel) false (plainFiles_iff.1 hp) plain4_nil 0 []
      with ⟨srcs, rs, t', n', es', h0, -, j1, j2⟩ | ⟨pre, f, post, srcs, rs, t', n', e', -, -, -, j1, -⟩
    · rw [j1] at hrun
      cases hrun
      obtain ⟨srcs', hr', e1, -⟩ := buildAll_ok_from (plainFiles_iff.1 hp) plain4_nil j2
      simp only at e1
      obtain ⟨tl, htl⟩ := tableLines_total (t := t) (by
        intro tag seg sub kind e he
        rw [recorded_iff, e1,
          buildSrcs_recorded upper srcs' [] (read_plain hr' hp) plain4_nil] at he
        rcases he with ⟨k, i, s, tt, -, rfl⟩ | ⟨he, -⟩
        · exact ⟨s.file, rfl⟩
        · cases he)
      simp only [htl] at h
      cases h
      exact .inl ⟨rfl, _, _, k1 rfl, by rw [told_append, told_msgs], summary_list _ _ _⟩
    · rw [j1] at hrun
      cases hrun

/-- C170: the same for find-symbols. -/
theorem C170_find_symbols (upper : Str → Str) (extract : Str → List Str → Nat → List Str)
    (fs : FileSystem) (fuel : Nat) (argv files : List Str) (symbol : Str) (os : List Opt)
    (out : List (VMsg SymMsg)) (r : Py Unit) (hm : Means FIND_SYMBOLS_OPTS argv os (symbol :: files))
    (hh : ¬ ∃ o ∈ os, o.dest = none) (hc : ¬ Conflict os) (hf : files ≠ []) (hp : PlainFiles files)
    (hr : r ≠ .error .recursionError) (h : findSymbolsCmd upper extract fs fuel argv = (out, r)) :
    (r = .ok () ∧ ∃ b, ∃ tail : List SymMsg, Blocks fs (Given os (py "verbose")) (ReportTold upper true) files b ∧
      out.map told = b ++ tail.map .inr ∧ ∀ msg ∈ tail, Summary msg) ∨
    (∃ e, r = .error e) ∧ BlocksUntil fs (Given os (py "verbose")) (ReportTold upper true) files
      (out.map told) := by
  rcases means_values C153_good.2.2.1 hm with ⟨e, -⟩ | ⟨-, v, e, hv⟩
  · exact absurd e hh
  unfold findSymbolsCmd at h
  rw [e] at h
  simp only at h
  rw [hv (py "verbose") (by decide), hv (py "begin") (by decide), hv (py "end") (by decide),
    hv (py "fuzzy") (by decide), hv (py "exact") (by decide)] at h
  rw [conflict_iff] at hc
  generalize decide (Given os (py "begin")) = begin at *
  generalize decide (Given os (py "end")) = end_ at *
  generalize decide (Given os (py "fuzzy")) = fuzzy at *
  generalize decide (Given os (py "exact")) = exact_ at *
  obtain ⟨f, fl, rfl⟩ : ∃ f fl, files = f :: fl := by
    cases files with
    | nil => exact absurd rfl hf
    | cons f fl => exact ⟨f, fl, rfl⟩
  unfold findSymbolsV at h
  rw [if_neg (by rw [← count_two]; exact hc)] at h
  simp only at h
  cases hb : buildFilesV (decide (Given os (py "verbose"))) upper fs fuel true (f :: fl) [] 0 with
  | mk o q =>
  obtain ⟨t, n, q⟩ := q
  obtain ⟨k1, k2⟩ := buildFilesV_told _ upper fs fuel true (f :: fl) (plainFiles_iff.1 hp) _ _
    plain4_nil _ _ _ _ hb
  simp only [decide_eq_true_eq] at k1 k2
  rw [hb] at h
  cases q with
  | error e =>
    cases h
    exact .inr ⟨⟨e, rfl⟩, k2 e rfl fun e' => hr (by rw [e'])⟩
  | ok u =>
    cases h
    refine .inl ⟨rfl, _, _, k1 rfl, by rw [told_append, told_msgs], summary_find _ _ _ ?_⟩
    intro msg hmsg
    split at hmsg
    · cases hmsg
    · cases hmsg
    · cases hmsg
    · exact ⟨_, List.mem_singleton.1 hmsg⟩

/-! ### parse -/

theorem told_inl (l : List (VMsg SymMsg)) :
    (l.map VMsg.inl).map told = (l.map told).map (Sum.map id .inl) := by
  rw [List.map_map, List.map_map]
  refine List.map_congr_left fun x _ => ?_
  cases x <;> rfl

theorem notesIf_map {α β : Type} (g : α → β) (v : Prop) (m : List Note) :
    (notesIf v m).map (Sum.map id g) = notesIf v m := by
  unfold notesIf
  split
  · rw [List.map_map]; rfl
  · rfl

theorem blocks_map {α β : Type} (g : α → β) {fs : FileSystem} {v : Prop}
    {about : Str → List Src → List (Told α) → Prop} {files : List Str} {b : List (Told α)}
    (h : Blocks fs v about files b) :
    Blocks fs v (Lifted g about) files (b.map (Sum.map id g)) := by
  obtain ⟨bs, h1, rfl⟩ := h
  refine ⟨bs.map (List.map (Sum.map id g)), ?_, by rw [List.map_flatten]⟩
  rw [List.forall₂_map_right_iff]
  refine h1.imp fun f b hb => ?_
  obtain ⟨hne, m, src, l, h2, h3, h4, rfl⟩ := hb
  exact ⟨hne, m, src, _, h2, h3, ⟨l, h4, rfl⟩, by rw [List.map_append, notesIf_map]⟩

theorem broken_map {α β : Type} (g : α → β) {fs : FileSystem} {v : Prop} {f : Str}
    {b : List (Told α)} (h : Broken fs v f b) : Broken fs v f (b.map (Sum.map id g)) := by
  rcases h with ⟨h, rfl⟩ | ⟨h, m, hm, rfl⟩
  · exact .inl ⟨h, rfl⟩
  · exact .inr ⟨h, m, hm, notesIf_map g v m⟩

theorem until_map {α β : Type} (g : α → β) {fs : FileSystem} {v : Prop}
    {about : Str → List Src → List (Told α) → Prop} {files : List Str} {b : List (Told α)}
    (h : BlocksUntil fs v about files b) :
    BlocksUntil fs v (Lifted g about) files (b.map (Sum.map id g)) := by
  obtain ⟨pre, f, post, b₁, b₂, rfl, h1, h2, rfl⟩ := h
  exact ⟨pre, f, post, _, _, rfl, blocks_map g h1, broken_map g h2, List.map_append⟩

theorem parseStepV_told (v debug : Bool) (l e : Nat) (out : List (VMsg ParseMsg)) (c : CodeCard) :
    ∃ l' e' out', parseStepV v debug (l, e, out) c = (l', e', out') ∧
      out'.map told = out.map told ++ (cardTold v debug c).map (Sum.map id .inr) := by
  unfold parseStepV cardTold badInst
  simp only
  cases hi : c.instruction with
  | none => exact ⟨_, _, _, rfl, by simp [instOf, hi]⟩
  | some i =>
    cases i with
    | nil => exact ⟨_, _, _, rfl, by simp [instOf, hi]⟩
    | cons x xs =>
      have hio : instOf c = some (x :: xs) := by simp [instOf, hi]
      simp only [hio]
      by_cases hs : c.column8 = some (py "*")
      · have hst : star c = true := by simp [star, hs]
        simp only [hs, hst, if_true]
        refine ⟨_, _, _, rfl, ?_⟩
        cases v <;> cases debug <;> simp [told]
      · have hst : star c = false := by simp [star, hs]
        simp only [hs, hst, if_false]
        by_cases hn : INSTRUCTIONS.contains (x :: xs) = true
        · simp only [hn]
          refine ⟨_, _, _, rfl, ?_⟩
          cases v <;> cases debug <;> simp [told]
        · rw [Bool.not_eq_true] at hn
          simp only [hn]
          refine ⟨_, _, _, rfl, ?_⟩
          cases v <;> cases debug <;> simp [told]

theorem parseFoldV_told (v debug : Bool) (cs : List CodeCard) (l e : Nat)
    (out : List (VMsg ParseMsg)) :
    ∃ l' e' out', cs.foldl (parseStepV v debug) (l, e, out) = (l', e', out') ∧
      out'.map told = out.map told ++ (cs.flatMap (cardTold v debug)).map (Sum.map id .inr) := by
  induction cs generalizing l e out with
  | nil => exact ⟨l, e, out, rfl, by simp⟩
  | cons c cs ih =>
    obtain ⟨l1, e1, o1, h1, h2⟩ := parseStepV_told v debug l e out c
    obtain ⟨l2, e2, o2, h3, h4⟩ := ih l1 e1 o1
    refine ⟨l2, e2, o2, by rw [List.foldl_cons, h1, h3], ?_⟩
    rw [h4, h2, List.flatMap_cons, List.map_append, List.append_assoc]

theorem parseDecksV_told (v debug : Bool) (fs : FileSystem) (fuel : Nat) (files : List Str)
    (hd : ∀ f ∈ files, ∃ cs, deckCards fs fuel f = .ok cs) (l e : Nat)
    (out : List (VMsg ParseMsg)) :
    ∃ l' e' out' b, parseDecksV v fs fuel debug files (l, e, out) = ((l', e', out'), .ok ()) ∧
      Blocks fs (v = true) (Lifted .inr (EachLine (CheckLine (v = true) (debug = true)))) files b ∧
      out'.map told = out.map told ++ b := by
  induction files generalizing l e out with
  | nil => exact ⟨l, e, out, [], rfl, blocks_nil, by simp⟩
  | cons f files ih =>
    obtain ⟨cs, hcs⟩ := hd f List.mem_cons_self
    have h1 := deckCardsV_snd (α := ParseMsg) v fs fuel f
    cases hV : deckCardsV (α := ParseMsg) v fs fuel f with
    | mk o q =>
      rw [hV, hcs] at h1
      simp only at h1
      subst h1
      obtain ⟨hne, m, src, k1, k2, rfl, k3⟩ := (deckV_told hV).1 _ rfl
      obtain ⟨l1, e1, o1, h2, h3⟩ := parseFoldV_told v debug (src.map srcCard) l e (out ++ o)
      obtain ⟨l2, e2, o2, b, h4, h5, h6⟩ := ih (fun g hg => hd g (List.mem_cons_of_mem _ hg)) l1 e1 o1
      have hb : Block fs (v = true)
          (Lifted (β := ParseMsg) .inr (EachLine (CheckLine (v = true) (debug = true)))) f
          (notesIf (v = true) m ++
            ((src.map srcCard).flatMap (cardTold v debug)).map (Sum.map id .inr)) := by
        refine ⟨hne, m, src, _, k1, k2, ⟨_, ?_, rfl⟩, rfl⟩
        rw [List.flatMap_map]
        exact eachLine_map f src _ fun s => cardTold_says v _ s
      refine ⟨l2, e2, o2, _, ?_, blocks_cons hb h5, ?_⟩
      · rw [parseDecksV, hV]
        simp only
        rw [h2, h4]
      · rw [h6, h3, told_append, k3]
        simp only [List.append_assoc]

theorem buildFilesV_decks {v : Bool} {upper : Str → Str} {fs : FileSystem} {fuel : Nat}
    {announce : Bool} {files : List Str} {t : Symtab} {n : Nat} {u : Unit}
    (h : (buildFilesV v upper fs fuel announce files t n).2.2.2 = .ok u) :
    ∀ f ∈ files, ∃ cs, deckCards fs fuel f = .ok cs := by
  induction files generalizing t n with
  | nil => exact fun f hf => absurd hf List.not_mem_nil
  | cons g files ih =>
    rw [buildFilesV] at h
    cases hb : buildV v upper fs fuel g t with
    | mk o q =>
    obtain ⟨b, q⟩ := q
    rw [hb] at h
    cases q with
    | error e => cases h
    | ok w =>
      have h1 : ∃ cs, deckCards fs fuel g = .ok cs := by
        unfold buildV at hb
        have e := deckCardsV_snd (α := SymMsg) v fs fuel g
        cases hd : deckCardsV (α := SymMsg) v fs fuel g with
        | mk o' r =>
          rw [hd] at hb e
          cases r with
          | error e => cases hb
          | ok cs => exact ⟨cs, e.symm⟩
      intro f hf
      rcases List.mem_cons.1 hf with rfl | hf
      · exact h1
      · exact ih h f hf

/-- C170: parse first goes through all files to report the errors of the symbol table, and then through
all of them again to say what is to be said about each line; both times with `--verbose` it tells what
is told while the file is read. The numbers of lines and of errors come at the end. If a file cannot be
read it stops there when it first meets it. -/
theorem C170_parse (upper : Str → Str) (fs : FileSystem) (fuel : Nat) (argv files : List Str)
    (os : List Opt) (out : List (VMsg ParseMsg)) (r : Py Unit) (hm : Means PARSE_OPTS argv os files)
    (hh : ¬ ∃ o ∈ os, o.dest = none) (hf : files ≠ []) (hp : PlainFiles files)
    (hr : r ≠ .error .recursionError) (h : parseCmd upper fs fuel argv = (out, r)) :
    (r = .ok () ∧ ∃ b₁ b₂ n k,
      Blocks fs (Given os (py "verbose")) (Lifted .inl (ReportTold upper true)) files b₁ ∧
      Blocks fs (Given os (py "verbose"))
        (Lifted .inr (EachLine (CheckLine (Given os (py "verbose")) (Given os (py "debug"))))) files b₂ ∧
      out.map told = b₁ ++ b₂ ++ [.inr (.inr (.lines n)), .inr (.inr (.errors k))]) ∨
    (∃ e, r = .error e) ∧ BlocksUntil fs (Given os (py "verbose"))
      (Lifted .inl (ReportTold upper true)) files (out.map told) := by
  rcases means_values C153_good.2.2.2.2.2.1 hm with ⟨e, -⟩ | ⟨-, v, e, hv⟩
  · exact absurd e hh
  unfold parseCmd at h
  rw [e] at h
  simp only at h
  rw [hv (py "verbose") (by decide), hv (py "debug") (by decide)] at h
  unfold parseV at h
  rw [if_neg (list_args hf)] at h
  cases hb : buildFilesV (decide (Given os (py "verbose"))) upper fs fuel true files [] 0 with
  | mk o q =>
  obtain ⟨t, n, q⟩ := q
  obtain ⟨k1, k2⟩ := buildFilesV_told _ upper fs fuel true files (plainFiles_iff.1 hp) _ _ plain4_nil
    _ _ _ _ hb
  have hdec := buildFilesV_decks (v := decide (Given os (py "verbose"))) (upper := upper) (fs := fs)
    (fuel := fuel) (announce := true) (files := files) (t := []) (n := 0) (u := ())
  obtain ⟨e1, e2⟩ := parseSymbolsV_build (decide (Given os (py "verbose"))) upper fs fuel files [] 0 0
  rw [hb] at e1 e2 hdec
  cases hs : parseSymbolsV (decide (Given os (py "verbose"))) upper fs fuel files [] 0 with
  | mk o' q' =>
  obtain ⟨n', q'⟩ := q'
  rw [hs] at e1 e2 h
  simp only at e1 e2
  subst e1 e2
  simp only [decide_eq_true_eq] at k1 k2
  cases q' with
  | error e =>
    cases h
    refine .inr ⟨⟨e, rfl⟩, ?_⟩
    rw [told_inl]
    exact until_map _ (k2 e rfl fun e' => hr (by rw [e']))
  | ok u =>
    obtain ⟨l, en, o2, b, j1, j2, j3⟩ := parseDecksV_told (decide (Given os (py "verbose")))
      (decide (Given os (py "debug"))) fs fuel files (hdec rfl) 0 n' []
    simp only [decide_eq_true_eq] at j2
    simp only at h
    rw [j1] at h
    cases h
    refine .inl ⟨rfl, _, _, l, en, blocks_map (β := ParseMsg) .inl (k1 rfl), j2, ?_⟩
    rw [told_append, told_append, told_inl, j3]
    rfl

/-! ### listing -/

theorem listingFilesV_told {v : Bool} {fs fs' : FileSystem} {fuel : Nat} {files : List Str}
    {out : List (VMsg Empty)} {e : PyErr} (hr : e ≠ .recursionError)
    (h : listingFilesV v fuel fs files = (fs', out, .error e)) :
    ∃ pre f post l b, files = pre ++ f :: post ∧ ListedTelling fs pre fs' l ∧
      Broken fs' (v = true) f b ∧ out.map told = (if v = true then l.map .inl else []) ++ b := by
  induction files generalizing fs out with
  | nil => cases h
  | cons f files ih =>
    rw [listingFilesV] at h
    cases hd : deckCardsV (α := Empty) v fs fuel f with
    | mk o q =>
      rw [hd] at h
      obtain ⟨d1, d2⟩ := deckV_told hd
      cases q with
      | error e' =>
        cases h
        exact ⟨[], f, files, [], _, rfl, .nil _, d2 e rfl hr, by simp⟩
      | ok cards =>
        obtain ⟨hne, m, src, h1, h2, rfl, h3⟩ := d1 _ rfl
        simp only at h
        cases hl : listingFilesV v fuel
            (writeFile fs (listfileOf f) ((src.map srcCard).flatMap deckLine)) files with
        | mk fs2 q =>
        obtain ⟨out2, r⟩ := q
        rw [hl] at h
        cases h
        obtain ⟨ls, h4, h5⟩ := deckLines_spec src
        obtain ⟨pre, g, post, l, b, rfl, i1, i2, i3⟩ := ih hl
        refine ⟨f :: pre, g, post, _, b, rfl, .cons h2 h1 (listfileOf_spec f) h4 ?_ ?_ i1, i2, ?_⟩
        · unfold writeFile
          rw [if_pos rfl, h5]
        · intro g hg
          unfold writeFile
          rw [if_neg hg]
        · rw [told_append, told_append, h3, i3]
          unfold notesIf
          cases v <;> simp [told]

/-- C170: if listing stops at a file that cannot be read, it has written the listings of the files
before it and nothing else. With `--verbose` it has told what is told while these are read, each
followed by the name of the listing, and what is told until reading stops; otherwise nothing. -/
theorem C170_listing (fs fs' : FileSystem) (fuel : Nat) (argv files : List Str) (os : List Opt)
    (out : List (VMsg Empty)) (e : PyErr) (hm : Means VERBOSE_OPTS argv os files)
    (hh : ¬ ∃ o ∈ os, o.dest = none) (hf : files ≠ []) (hr : e ≠ .recursionError)
    (h : listingCmd fs fuel argv = (fs', out, .error e)) :
    ∃ pre f post l b, files = pre ++ f :: post ∧ ListedTelling fs pre fs' l ∧
      Broken fs' (Given os (py "verbose")) f b ∧
      out.map told = (if Given os (py "verbose") then l.map .inl else []) ++ b := by
  rcases means_values C153_good.2.2.2.2.1 hm with ⟨e, -⟩ | ⟨-, v, e, hv⟩
  · exact absurd e hh
  unfold listingCmd at h
  rw [e] at h
  simp only at h
  rw [hv (py "verbose") (by decide)] at h
  unfold listingV at h
  rw [if_neg (list_args hf)] at h
  have := listingFilesV_told hr h
  simpa only [decide_eq_true_eq] using this

/-! ### What the description determines -/

theorem block_broken {α β : Type} {fs : FileSystem} {v v' : Prop}
    {about : Str → List Src → List (Told α) → Prop} {f : Str} {b : List (Told α)}
    {b' : List (Told β)} (h : Block fs v about f b) (h' : Broken fs v' f b') : False := by
  obtain ⟨hne, m, src, l, h1, -⟩ := h
  rcases h' with ⟨h' | h', -⟩ | ⟨-, m', h', -⟩
  · exact hne h'
  · obtain ⟨t, n, hf, -⟩ := h1
    rw [h'] at hf
    cases hf
  · exact absurd (C150_unique fs f _ _ _ _ h1 h').1 (by decide)

theorem broken_unique {α : Type} {fs : FileSystem} {v : Prop} {f : Str} {b b' : List (Told α)}
    (h : Broken fs v f b) (h' : Broken fs v f b') : b = b' := by
  rcases h with ⟨h, rfl⟩ | ⟨h, m, hm, rfl⟩
  · rcases h' with ⟨-, rfl⟩ | ⟨h1, m', hm', rfl⟩
    · rfl
    · rcases h with h | h
      · exact absurd h h1
      · obtain ⟨t, n, hf, -⟩ := hm'
        rw [h] at hf
        cases hf
  · rcases h' with ⟨h1, rfl⟩ | ⟨h1, m', hm', rfl⟩
    · rcases h1 with h1 | h1
      · exact absurd h1 h
      · obtain ⟨t, n, hf, -⟩ := hm
        rw [h1] at hf
        cases hf
    · rw [(C150_unique fs f _ _ _ _ hm hm').2]

/-- C170: whether all files are dealt with, or at which of them the tool stops, does not depend on the
tool, on `--verbose` or on the options, and if what is said about a file is determined by its lines
then so is all that is printed. -/
theorem C170_unique {α : Type} (fs : FileSystem) (v : Prop)
    (about : Str → List Src → List (Told α) → Prop)
    (ha : ∀ f src l l', about f src l → about f src l' → l = l') (files : List Str)
    (b b' : List (Told α)) :
    (Blocks fs v about files b → Blocks fs v about files b' → b = b') ∧
    (BlocksUntil fs v about files b → BlocksUntil fs v about files b' → b = b') ∧
    (∀ (β : Type) (v' : Prop) (about' : Str → List Src → List (Told β) → Prop) (c : List (Told β)),
      Blocks fs v about files b → ¬ BlocksUntil fs v' about' files c) := by
  have hblock : ∀ {f b b'}, Block fs v about f b → Block fs v about f b' → b = b' := by
    rintro f b b' ⟨-, m, src, l, h1, h2, h3, rfl⟩ ⟨-, m', src', l', h1', h2', h3', rfl⟩
    rw [(C150_unique fs f _ _ _ _ h1 h1').2]
    obtain rfl := expands_unique h2 h2'
    rw [ha f src l l' h3 h3']
  have hblocks : ∀ {files b b'}, Blocks fs v about files b → Blocks fs v about files b' →
      b = b' := by
    rintro files b b' ⟨bs, h, rfl⟩ ⟨bs', h', rfl⟩
    congr 1
    induction h generalizing bs' with
    | nil => cases h'; rfl
    | cons hb _ ih =>
      cases h' with
      | cons hb' h' => rw [hblock hb hb', ih _ h']
  refine ⟨hblocks, ?_, ?_⟩
  · rintro ⟨pre, f, post, b₁, b₂, rfl, h1, h2, rfl⟩ ⟨pre', f', post', c₁, c₂, he, h1', h2', rfl⟩
    have hpre : ∀ (pre pre' : List Str) (f f' : Str) (post post' : List Str) (bs bs' : List _),
        pre ++ f :: post = pre' ++ f' :: post' → List.Forall₂ (Block fs v about) pre bs →
        List.Forall₂ (Block fs v about) pre' bs' →
        (∃ b, Broken (α := α) fs v f b) → (∃ b, Broken (α := α) fs v f' b) → pre = pre' ∧ f = f' := by
      intro pre
      induction pre with
      | nil =>
        rintro (_ | ⟨g, pre'⟩) f f' post post' bs bs' he h h' ⟨b, hb⟩ -
        · cases he; exact ⟨rfl, rfl⟩
        · cases he
          cases h' with
          | cons h' _ => exact (block_broken h' hb).elim
      | cons g pre ih =>
        rintro (_ | ⟨g', pre'⟩) f f' post post' bs bs' he h h' hb ⟨b', hb'⟩
        · cases he
          cases h with
          | cons h _ => exact (block_broken h hb').elim
        · rw [List.cons_append, List.cons_append] at he
          injection he with h1 h2
          subst h1
          cases h with
          | cons _ h =>
            cases h' with
            | cons _ h' =>
              obtain ⟨rfl, rfl⟩ := ih pre' f f' post post' _ _ h2 h h' hb ⟨b', hb'⟩
              exact ⟨rfl, rfl⟩
    obtain ⟨bs, g1, e1⟩ := h1
    obtain ⟨bs', g1', e1'⟩ := h1'
    obtain ⟨rfl, rfl⟩ := hpre pre pre' f f' post post' bs bs' he g1 g1' ⟨_, h2⟩ ⟨_, h2'⟩
    rw [hblocks ⟨bs, g1, e1⟩ ⟨bs', g1', e1'⟩, broken_unique h2 h2']
  · rintro β v' about' c ⟨bs, h, -⟩ ⟨pre, f, post, b₁, b₂, rfl, -, h2, -⟩
    obtain ⟨b, hb⟩ : ∃ b, Block fs v about f b := by
      induction pre generalizing bs with
      | nil => cases h with | cons h _ => exact ⟨_, h⟩
      | cons g pre ih => cases h with | cons _ h => exact ih _ h
    exact block_broken hb h2

/-! ### An example -/

/-- A file that can be read, with a comment and a starred line, and one that includes a file that does
not exist. -/
def orderFs : FileSystem := fun f =>
  if f = py "A.arg" then some (py "# x\n       *           TX\n                   TN\n")
  else if f = py "B.arg" then some (py "# y\n$Z.arg\n                   QQ\n")
  else none

/-- C170: both runs meet the hypotheses; the one with one file ends well, the one with two stops. -/
example : Means CHECK_INSTRUCTIONS_OPTS [py "-v", py "A.arg", py "B.arg"]
      [⟨py "-v", py "--verbose", some (py "verbose")⟩] [py "A.arg", py "B.arg"] ∧
    Means LIST_INSTRUCTIONS_OPTS [py "-v", py "TN", py "A.arg", py "B.arg"]
      [⟨py "-v", py "--verbose", some (py "verbose")⟩] [py "TN", py "A.arg", py "B.arg"] ∧
    Means VERBOSE_OPTS [py "-v", py "A.arg", py "B.arg"]
      [⟨py "-v", py "--verbose", some (py "verbose")⟩] [py "A.arg", py "B.arg"] ∧
    checkInstructionsCmd orderFs 10 [py "-v", py "A.arg", py "B.arg"] =
      ([.reading (py "A.arg"), .meta_ (py "A.arg") 1,
        .starred (srcCard ⟨py "A.arg", 2, py "       *           TX\n"⟩),
        .reading (py "B.arg"), .meta_ (py "B.arg") 1], .error .systemExit) ∧
    listInstructionsCmd orderFs 10 [py "-v", py "TN", py "A.arg", py "B.arg"] =
      ([.reading (py "A.arg"), .meta_ (py "A.arg") 1,
        .starred (srcCard ⟨py "A.arg", 2, py "       *           TX\n"⟩),
        .msg (py "                   TN"),
        .reading (py "B.arg"), .meta_ (py "B.arg") 1], .error .systemExit) ∧
    (listingCmd orderFs 10 [py "-v", py "A.arg", py "B.arg"]).2 =
      ([.reading (py "A.arg"), .meta_ (py "A.arg") 1, .wrote (py "A.lst"),
        .reading (py "B.arg"), .meta_ (py "B.arg") 1], .error .systemExit) ∧
    (listingCmd orderFs 10 [py "-v", py "A.arg", py "B.arg"]).1 (py "B.lst") = none := by
  refine ⟨?_, ?_, ?_, ?_, ?_, ?_, ?_⟩
  · exact Means.letters (cs := py "v") (os := [_]) (by decide)
      (List.Forall₂.cons (by decide) List.Forall₂.nil)
      (.plain (Or.inr (by decide)) (.plain (Or.inr (by decide)) .done))
  · exact Means.letters (cs := py "v") (os := [_]) (by decide)
      (List.Forall₂.cons (by decide) List.Forall₂.nil)
      (.plain (Or.inr (by decide)) (.plain (Or.inr (by decide)) (.plain (Or.inr (by decide)) .done)))
  · exact Means.letters (cs := py "v") (os := [_]) (by decide)
      (List.Forall₂.cons (by decide) List.Forall₂.nil)
      (.plain (Or.inr (by decide)) (.plain (Or.inr (by decide)) .done))
  · decide +kernel
  · decide +kernel
  · decide +kernel
  · decide +kernel

/-- C170: the symbol tools and parse, with a file that can be read. -/
example : Means PARSE_OPTS [py "-v", py "A.arg"] [⟨py "-v", py "--verbose", some (py "verbose")⟩]
      [py "A.arg"] ∧ PlainFiles [py "A.arg"] ∧
    (parseCmd asciiUpper orderFs 10 [py "-v", py "A.arg"]).2 = .ok () ∧
    (parseCmd asciiUpper orderFs 10 [py "-v", py "A.arg"]).1.length = 8 := by
  refine ⟨?_, ?_, ?_, ?_⟩
  · exact Means.letters (cs := py "v") (os := [_]) (by decide)
      (List.Forall₂.cons (by decide) List.Forall₂.nil) (.plain (Or.inr (by decide)) .done)
  · exact fun f hf => twoFs_plain f (by
      rw [List.mem_singleton] at hf
      rw [hf]
      exact List.mem_cons_self)
  · decide +kernel
  · decide +kernel

end H800
