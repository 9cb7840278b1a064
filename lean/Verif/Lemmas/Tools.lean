import Verif.Lemmas.SymbolsFind
import Verif.Spec.Tools

/-! Lemmas about the tools that read decks. -/

namespace H800

open Spec

/-! ### Reading the files -/

theorem sources_nil {fs : FileSystem} : Sources fs [] [] := ⟨[], .nil, rfl⟩

theorem sources_cons {fs : FileSystem} {f : Str} {files : List Str} {o out : List Src}
    (h1 : Expands fs f o) (h2 : Sources fs files out) : Sources fs (f :: files) (o ++ out) := by
  obtain ⟨outs, h, rfl⟩ := h2
  exact ⟨o :: outs, .cons h1 h, rfl⟩

theorem expands_unique {fs : FileSystem} {f : Str} {a b : List Src} (ha : Expands fs f a)
    (hb : Expands fs f b) : a = b := by
  obtain ⟨x, hx, hx2⟩ := ha
  obtain ⟨y, hy, hy2⟩ := hb
  rw [hx] at hy; cases hy
  exact expand_unique hx2 _ hy2

theorem sources_unique {fs : FileSystem} {files : List Str} {a b : List Src}
    (ha : Sources fs files a) (hb : Sources fs files b) : a = b := by
  obtain ⟨xs, hx, rfl⟩ := ha
  obtain ⟨ys, hy, rfl⟩ := hb
  have : xs = ys := by
    induction hx generalizing ys with
    | nil => cases hy; rfl
    | cons h _ ih =>
      cases hy with
      | cons h' ht => rw [expands_unique h h', ih _ ht]
  rw [this]

theorem foldFiles_ok {σ : Type} {fs : FileSystem} {fuel : Nat} {step : σ → CodeCard → σ}
    {files : List Str} {st st' : σ}
    (h : files.foldlM (fun st f => do return (← deckCards fs fuel f).foldl step st) st = Except.ok (ε := PyErr) st') :
    ∃ out, Sources fs files out ∧ st' = (out.map srcCard).foldl step st := by
  induction files generalizing st with
  | nil => cases h; exact ⟨[], sources_nil, rfl⟩
  | cons f files ih =>
    rw [List.foldlM_cons] at h
    cases hd : deckCards fs fuel f with
    | error e => rw [hd] at h; cases h
    | ok cs =>
      rw [hd] at h
      obtain ⟨-, o, ho, rfl⟩ := deckCards_ok hd
      obtain ⟨out, h1, h2⟩ := ih h
      refine ⟨o ++ out, sources_cons ho h1, ?_⟩
      rw [h2, List.map_append, List.foldl_append]

theorem foldFiles_complete {σ : Type} {fs : FileSystem} {files : List Str}
    (hne : ∀ f ∈ files, f ≠ []) {out : List Src} (h : Sources fs files out) :
    ∃ n, ∀ m, n ≤ m → ∀ (step : σ → CodeCard → σ) (st : σ),
      files.foldlM (fun st f => do return (← deckCards fs m f).foldl step st) st =
        Except.ok (ε := PyErr) ((out.map srcCard).foldl step st) := by
  obtain ⟨outs, h, rfl⟩ := h
  induction h with
  | nil => exact ⟨0, fun _ _ _ _ => rfl⟩
  | @cons f o files outs h1 h2 ih =>
    obtain ⟨n1, hn1⟩ := deckCards_complete (hne f List.mem_cons_self) h1
    obtain ⟨n2, hn2⟩ := ih fun g hg => hne g (List.mem_cons_of_mem _ hg)
    refine ⟨max n1 n2, fun m hm step st => ?_⟩
    rw [List.foldlM_cons, hn1 m (by omega)]
    refine (hn2 m (by omega) step _).trans ?_
    rw [List.flatten_cons, List.map_append, List.foldl_append]

theorem mapFiles_ok {fs : FileSystem} {fuel : Nat} {files : List Str} {decks : List (List CodeCard)}
    (h : files.mapM (deckCards fs fuel) = .ok decks) :
    ∃ out, Sources fs files out ∧ decks.flatten = out.map srcCard := by
  induction files generalizing decks with
  | nil => rw [mapM_nil_ok.1 h]; exact ⟨[], sources_nil, rfl⟩
  | cons f files ih =>
    obtain ⟨cs, ds, h1, h2, rfl⟩ := mapM_cons_ok.1 h
    obtain ⟨-, o, ho, rfl⟩ := deckCards_ok h1
    obtain ⟨out, k1, k2⟩ := ih h2
    exact ⟨o ++ out, sources_cons ho k1, by rw [List.flatten_cons, k2, List.map_append]⟩

theorem mapFiles_complete {fs : FileSystem} {files : List Str} (hne : ∀ f ∈ files, f ≠ [])
    {out : List Src} (h : Sources fs files out) :
    ∃ n, ∀ m, n ≤ m → ∃ decks, files.mapM (deckCards fs m) = .ok decks ∧
      decks.flatten = out.map srcCard := by
  obtain ⟨outs, h, rfl⟩ := h
  induction h with
  | nil => exact ⟨0, fun _ _ => ⟨[], rfl, rfl⟩⟩
  | @cons f o files outs h1 h2 ih =>
    obtain ⟨n1, hn1⟩ := deckCards_complete (hne f List.mem_cons_self) h1
    obtain ⟨n2, hn2⟩ := ih fun g hg => hne g (List.mem_cons_of_mem _ hg)
    refine ⟨max n1 n2, fun m hm => ?_⟩
    obtain ⟨ds, k1, k2⟩ := hn2 m (by omega)
    exact ⟨_, mapM_cons_ok.2 ⟨_, ds, hn1 m (by omega), k1, rfl⟩, by
      rw [List.flatten_cons, k2, List.flatten_cons, List.map_append]⟩

/-! ### Instructions -/

/-- The instruction of a card, if it is truthy. -/
def instOf (c : CodeCard) : Option Str :=
  match c.instruction with
  | none => none
  | some [] => none
  | some (x :: xs) => some (x :: xs)

/-- The card is starred. -/
def star (c : CodeCard) : Bool := c.column8 = some (py "*")

theorem star_iff (s : Src) : star (srcCard s) = true ↔ Starred s := by
  unfold star
  rw [decide_eq_true_iff, starred_iff]

theorem instOf_iff (s : Src) (i : Str) : instOf (srcCard s) = some i ↔ HasInstr s i := by
  have h1 : (srcCard s).instruction = (srcCard s).operation.map fun o => strip (splitFirst o ',') := rfl
  unfold instOf HasInstr
  rw [h1]
  constructor
  · intro h
    cases ho : (srcCard s).operation with
    | none => rw [ho] at h; cases h
    | some o =>
      rw [ho] at h
      simp only [Option.map_some] at h
      split at h
      · cases h
      · cases h
      · rename_i x xs heq
        cases h
        simp only [Option.some.injEq] at heq
        refine ⟨by simp, o, splitFirst o ',', (op_iff s o).1 ho, beforeFirst ',' o, ?_⟩
        rw [stripped_iff, heq]
  · rintro ⟨hi, o, p, ho, hp, hs⟩
    rw [(op_iff s o).2 ho]
    simp only [Option.map_some]
    rw [beforeFirst_unique hp, stripped_iff.1 hs]
    obtain ⟨x, xs, rfl⟩ := List.exists_cons_of_ne_nil hi
    rfl

theorem hasInstr_unique {s : Src} {i j : Str} (hi : HasInstr s i) (hj : HasInstr s j) : i = j := by
  rw [← instOf_iff] at hi hj
  rw [hi] at hj
  exact Option.some.inj hj

/-- The instruction of the card is looked at and is `m`. -/
def isInst (m : Str) (c : CodeCard) : Bool := !star c && decide (instOf c = some m)

/-- The instruction of the card is looked at and not known. -/
def badInst (c : CodeCard) : Bool :=
  !star c && match instOf c with
    | none => false
    | some i => !INSTRUCTIONS.contains i

theorem isInst_iff (m : Str) (s : Src) :
    isInst m (srcCard s) = true ↔ ¬ Starred s ∧ HasInstr s m := by
  unfold isInst
  rw [Bool.and_eq_true, decide_eq_true_iff, instOf_iff, Bool.not_eq_true', ← star_iff,
    Bool.not_eq_true]

theorem badInst_iff (s : Src) : badInst (srcCard s) = true ↔ BadInstr s := by
  unfold badInst BadInstr
  rw [Bool.and_eq_true, Bool.not_eq_true', ← star_iff, Bool.not_eq_true]
  refine and_congr Iff.rfl ?_
  cases h : instOf (srcCard s) with
  | none =>
    simp only [Bool.false_eq_true, false_iff]
    rintro ⟨i, hi, -⟩
    rw [← instOf_iff, h] at hi
    cases hi
  | some i =>
    have hi := (instOf_iff s i).1 h
    simp only [Bool.not_eq_true', ← Bool.not_eq_true, List.contains_iff_mem]
    exact ⟨fun hn => ⟨i, hi, hn⟩, fun ⟨j, hj, hn⟩ => hasInstr_unique hj hi ▸ hn⟩

/-- Counting source lines by a predicate that a test on cards decides. -/
theorem count_src {p : CodeCard → Bool} {P : Src → Prop} [∀ s, Decidable (P s)] (h : ∀ s, p (srcCard s) = true ↔ P s)
    (out : List Src) :
    (out.map srcCard).countP p = (out.filter fun s => decide (P s)).length := by
  rw [List.countP_map, List.countP_eq_length_filter]
  congr 1
  apply List.filter_congr
  intro s _
  by_cases hs : P s
  · simp [hs, (h s).2 hs]
  · have : p (srcCard s) = false := by
      rw [Bool.eq_false_iff]; exact fun e => hs ((h s).1 e)
    simp [hs, this]

theorem filter_src {p : CodeCard → Bool} {P : Src → Prop} [∀ s, Decidable (P s)] (h : ∀ s, p (srcCard s) = true ↔ P s)
    (out : List Src) :
    (out.map srcCard).filter p = (out.filter fun s => decide (P s)).map srcCard := by
  rw [List.filter_map]
  congr 1
  apply List.filter_congr
  intro s _
  by_cases hs : P s
  · simp [hs, (h s).2 hs]
  · have : p (srcCard s) = false := by
      rw [Bool.eq_false_iff]; exact fun e => hs ((h s).1 e)
    simp [hs, this]

/-! ### check-instructions -/

theorem instructions_nodup : INSTRUCTIONS.Nodup := by decide +kernel

theorem fold_dset_keys {ν : Type} (v : ν) (l : List Str) (d : Dict Str ν)
    (h : (d.map (·.1) ++ l).Nodup) :
    l.foldl (fun d i => dset d i v) d = d ++ l.map fun i => (i, v) := by
  induction l generalizing d with
  | nil => simp
  | cons x l ih =>
    have hx : x ∉ d.map (·.1) := by
      intro hx
      rw [List.nodup_append] at h
      exact h.2.2 x hx x (by simp) rfl
    have hnew : dset d x v = d ++ [(x, v)] := by
      clear ih h
      induction d with
      | nil => rfl
      | cons p d ih =>
        obtain ⟨k, w⟩ := p
        simp only [List.map_cons, List.mem_cons, not_or] at hx
        unfold dset
        rw [if_neg (fun e => hx.1 e.symm), ih hx.2, List.cons_append]
    rw [List.foldl_cons, hnew, ih]
    · simp
    · simpa using h

theorem init_tab : CheckState.init.instrtab = INSTRUCTIONS.map fun i => (i, 0) := by
  unfold CheckState.init
  simp only
  rw [fold_dset_keys 0 INSTRUCTIONS [] (by simpa using instructions_nodup)]
  rfl

theorem dset_sum {d : Dict Str Nat} {k : Str} {n : Nat} (h : dget d k = some n) :
    ((dset d k (n + 1)).map (·.2)).sum = (d.map (·.2)).sum + 1 := by
  induction d with
  | nil => cases h
  | cons p d ih =>
    obtain ⟨k', v⟩ := p
    unfold dget at h
    unfold dset
    by_cases hk : k' = k
    · rw [if_pos hk] at h ⊢
      cases h
      simp only [List.map_cons, List.sum_cons]
      omega
    · rw [if_neg hk] at h ⊢
      simp only [List.map_cons, List.sum_cons, ih h]
      omega

theorem dset_keys_same {ν : Type} {d : Dict Str ν} {k : Str} {n v : ν} (h : dget d k = some n) :
    (dset d k v).map (·.1) = d.map (·.1) := by
  rw [dset_keys, if_pos]
  exact dget_isSome.1 (by rw [h]; rfl)

/-- The messages printed for a card. -/
def cardMsgs (opts : CheckOpts) (c : CodeCard) : List CheckMsg :=
  (if opts.printOpcodes && (instOf c).isSome then [.card c] else []) ++
    (if badInst c then [.invalid c] else [])

theorem checkStep_spec (opts : CheckOpts) (st : CheckState) (c : CodeCard)
    (hk : st.instrtab.map (·.1) = INSTRUCTIONS) :
    (checkStep opts st c).linecount = st.linecount + 1 ∧
    (checkStep opts st c).instrcount = st.instrcount + (if (instOf c).isSome then 1 else 0) ∧
    (checkStep opts st c).errcount = st.errcount + (if badInst c then 1 else 0) ∧
    (checkStep opts st c).instrtab.map (·.1) = INSTRUCTIONS ∧
    (∀ m, dget (checkStep opts st c).instrtab m =
      (dget st.instrtab m).map (· + if isInst m c then 1 else 0)) ∧
    ((checkStep opts st c).instrtab.map (·.2)).sum + (if badInst c then 1 else 0) +
      (if star c && (instOf c).isSome then 1 else 0) =
      (st.instrtab.map (·.2)).sum + (if (instOf c).isSome then 1 else 0) ∧
    (checkStep opts st c).out = st.out ++ cardMsgs opts c := by
  unfold checkStep badInst isInst cardMsgs badInst
  simp only
  cases hi : c.instruction with
  | none => simp [instOf, hi, hk, Option.map_id_fun']
  | some i =>
    cases i with
    | nil => simp [instOf, hi, hk, Option.map_id_fun']
    | cons x xs =>
      have hio : instOf c = some (x :: xs) := by simp [instOf, hi]
      simp only [hio]
      by_cases hs : c.column8 = some (py "*")
      · have hst : star c = true := by simp [star, hs]
        simp only [hs, hst, if_true]
        cases opts.printOpcodes <;> simp [hk, Option.map_id_fun']
      · have hst : star c = false := by simp [star, hs]
        simp only [hs, hst, if_false]
        cases hd : dget st.instrtab (x :: xs) with
        | none =>
          have hn : INSTRUCTIONS.contains (x :: xs) = false := by
            rw [← Bool.not_eq_true, List.contains_iff_mem, ← hk]
            exact dget_none.1 hd
          simp only [hn]
          refine ⟨trivial, rfl, rfl, hk, ?_, ?_, ?_⟩
          · intro m
            by_cases hm : x :: xs = m
            · rw [← hm, hd]; rfl
            · simp [hm, Option.map_id_fun']
          · simp
          · cases opts.printOpcodes <;> simp
        | some n =>
          have hn : INSTRUCTIONS.contains (x :: xs) = true := by
            rw [List.contains_iff_mem, ← hk]
            exact dget_isSome.1 (by rw [hd]; rfl)
          simp only [hn, if_true, ite_self]
          refine ⟨trivial, rfl, rfl, ?_, ?_, ?_, ?_⟩
          · rw [dset_keys_same hd]; exact hk
          · intro m
            rw [dget_dset]
            by_cases hm : x :: xs = m
            · subst hm; simp [hd]
            · have hm' : ¬ m = x :: xs := fun e => hm e.symm
              simp [hm, hm', Option.map_id_fun']
          · rw [dset_sum hd]; simp
          · cases opts.printOpcodes <;> simp

theorem checkFold_spec (opts : CheckOpts) (cs : List CodeCard) (st : CheckState)
    (hk : st.instrtab.map (·.1) = INSTRUCTIONS) :
    let r := cs.foldl (checkStep opts) st
    r.linecount = st.linecount + cs.length ∧
    r.instrcount = st.instrcount + cs.countP (fun c => (instOf c).isSome) ∧
    r.errcount = st.errcount + cs.countP badInst ∧
    r.instrtab.map (·.1) = INSTRUCTIONS ∧
    (∀ m, dget r.instrtab m = (dget st.instrtab m).map (· + cs.countP (isInst m))) ∧
    (r.instrtab.map (·.2)).sum + cs.countP badInst +
      cs.countP (fun c => star c && (instOf c).isSome) =
      (st.instrtab.map (·.2)).sum + cs.countP (fun c => (instOf c).isSome) ∧
    r.out = st.out ++ cs.flatMap (cardMsgs opts) := by
  induction cs generalizing st with
  | nil => simp [hk, Option.map_id_fun']
  | cons c cs ih =>
    obtain ⟨a1, a2, a3, a4, a5, a6, a7⟩ := checkStep_spec opts st c hk
    obtain ⟨b1, b2, b3, b4, b5, b6, b7⟩ := ih _ a4
    simp only [List.foldl_cons, List.countP_cons, List.flatMap_cons, List.length_cons]
    refine ⟨by omega, by omega, by omega, b4, fun m => ?_, by omega, ?_⟩
    · rw [b5, a5, Option.map_map]
      congr 1
      funext n
      simp only [Function.comp]
      omega
    · rw [b7, a7, List.append_assoc]

/-! ### The reports -/

theorem freqLines_ok (opts : CheckOpts) (n : Nat) (d : Dict Str Nat)
    (h : n ≠ 0 ∨ ∀ p ∈ d, opts.unused = true ∧ p.2 = 0) :
    freqLines opts n d = .ok ((d.filter fun p => !opts.unused || decide (p.2 ≠ 0)).map
      fun p => .freq p.1 p.2 n) := by
  induction d with
  | nil => rfl
  | cons p d ih =>
    obtain ⟨i, k⟩ := p
    have ih := ih (h.imp id fun h q hq => h q (List.mem_cons_of_mem _ hq))
    unfold freqLines
    rw [List.filter_cons]
    by_cases hc : ((opts.unused && decide (k ≠ 0)) || !opts.unused) = true
    · rw [if_pos hc]
      have hc' : (!opts.unused || decide (k ≠ 0)) = true := by
        revert hc; cases opts.unused <;> simp
      rw [if_pos hc']
      rcases h with h | h
      · rw [if_neg h, ih]; rfl
      · obtain ⟨h1, h2⟩ := h _ List.mem_cons_self
        simp only at h2
        rw [h1, h2] at hc
        simp at hc
    · rw [if_neg hc]
      have hc' : ¬ (!opts.unused || decide (k ≠ 0)) = true := by
        revert hc; cases opts.unused <;> simp
      rw [if_neg hc', ih]

theorem freqLines_zero (opts : CheckOpts) (hu : opts.unused = false) (d : Dict Str Nat) (hd : d ≠ []) :
    freqLines opts 0 d = .error .zeroDivision := by
  cases d with
  | nil => exact absurd rfl hd
  | cons p d => obtain ⟨i, k⟩ := p; simp [freqLines, hu]

theorem freqtab_perm (d : Dict Str Nat) : (freqtab d).Perm d := pySorted_perm _

theorem freqtab_sorted (d : Dict Str Nat) : (freqtab d).Pairwise fun a b => b.2 ≤ a.2 := by
  have := pySorted_pairwise (le := fun a b : Str × Nat => decide (b.2 ≤ a.2))
    (by intro a b; simp only [decide_eq_true_eq]; omega)
    (by intro a b c; simp only [decide_eq_true_eq]; omega) d
  unfold freqtab
  simpa only [decide_eq_true_eq] using this

theorem byName_perm {d : Dict Str Nat} (hd : (d.map (·.1)).Nodup) : (byName d).Perm d := by
  unfold byName
  have h := (pySortedStr_perm (d.map (·.1))).map fun i => (i, (dget d i).getD 0)
  refine h.trans ?_
  rw [List.map_map]
  have : d.map ((fun i => (i, (dget d i).getD 0)) ∘ fun x => x.1) = d := by
    conv_rhs => rw [← List.map_id d]
    apply List.map_congr_left
    rintro ⟨k, v⟩ hp
    simp [dget_of_mem hd hp]
  rw [this]

theorem byName_keys (d : Dict Str Nat) : (byName d).map (·.1) = pySortedStr (d.map (·.1)) := by
  unfold byName
  rw [List.map_map]
  conv_rhs => rw [← List.map_id (pySortedStr _)]
  rfl

theorem freqs_append (a b : List CheckMsg) : freqs (a ++ b) = freqs a ++ freqs b := by
  induction a with
  | nil => rfl
  | cons m a ih => cases m <;> simp [freqs, ih]

theorem unuseds_append (a b : List CheckMsg) : unuseds (a ++ b) = unuseds a ++ unuseds b := by
  induction a with
  | nil => rfl
  | cons m a ih => cases m <;> simp [unuseds, ih]

theorem invalids_append (a b : List CheckMsg) : invalids (a ++ b) = invalids a ++ invalids b := by
  induction a with
  | nil => rfl
  | cons m a ih => cases m <;> simp [invalids, ih]

theorem cardMsgs_sets (opts : CheckOpts) (cs : List CodeCard) :
    freqs (cs.flatMap (cardMsgs opts)) = [] ∧ unuseds (cs.flatMap (cardMsgs opts)) = [] ∧
    invalids (cs.flatMap (cardMsgs opts)) = cs.filter badInst := by
  induction cs with
  | nil => exact ⟨rfl, rfl, rfl⟩
  | cons c cs ih =>
    obtain ⟨h1, h2, h3⟩ := ih
    rw [List.flatMap_cons, freqs_append, unuseds_append, invalids_append, h1, h2, h3,
      List.filter_cons]
    unfold cardMsgs
    refine ⟨?_, ?_, ?_⟩ <;> cases opts.printOpcodes <;> cases (instOf c).isSome <;>
      cases badInst c <;> rfl

theorem map_freq (n : Nat) (d : List (Str × Nat)) :
    freqs (d.map fun p => .freq p.1 p.2 n) = d.map (fun p => (p.1, p.2, n)) ∧
    unuseds (d.map fun p => .freq p.1 p.2 n) = [] ∧
    invalids (d.map fun p => .freq p.1 p.2 n) = [] := by
  induction d with
  | nil => exact ⟨rfl, rfl, rfl⟩
  | cons p d ih => simp [freqs, unuseds, invalids, ih]

theorem map_unused (d : List (Str × Nat)) :
    freqs (d.map fun p => .unused p.1) = [] ∧ unuseds (d.map fun p => .unused p.1) = d.map (·.1) ∧
    invalids (d.map fun p => .unused p.1) = [] := by
  induction d with
  | nil => exact ⟨rfl, rfl, rfl⟩
  | cons p d ih => simp [freqs, unuseds, invalids, ih]

/-! ### list-instructions -/

theorem hasOp_strip {s : Src} {o : Str} (h : HasOp s o) : strip o = o ∧ o ≠ [] := by
  obtain ⟨-, h1, h2⟩ := h
  refine ⟨?_, h1⟩
  rw [← stripped_iff.1 h2, strip_strip]

theorem splitFirst_id {s : Str} {c : Char} (h : c ∉ s) : splitFirst s c = s :=
  beforeFirst_unique ⟨h, Or.inl rfl⟩

theorem listed_iff (opcode : Str) (s : Src) : listed opcode (srcCard s) = true ↔ Matches opcode s := by
  unfold listed Matches
  rw [← starred_iff]
  cases ho : (srcCard s).operation with
  | none =>
    simp only [Bool.false_eq_true, false_iff]
    rintro ⟨-, o, t, h, -⟩
    rw [← op_iff, ho] at h
    cases h
  | some o =>
    have hop := (op_iff s o).1 ho
    obtain ⟨hst, hne⟩ := hasOp_strip hop
    obtain ⟨x, xs, rfl⟩ := List.exists_cons_of_ne_nil hne
    simp only
    have huniq : ∀ o', HasOp s o' → o' = x :: xs := by
      intro o' h
      rw [← op_iff, ho] at h
      exact (Option.some.inj h).symm
    by_cases h8 : (srcCard s).column8 = some (py "*")
    · simp [h8]
    · rw [if_neg h8, hst]
      simp only [h8, not_false_eq_true, true_and]
      obtain ⟨t, ht⟩ : ∃ t, (x :: xs).filter (fun x => decide (x ≠ ' ')) = t := ⟨_, rfl⟩
      have hrem : remove (x :: xs) ' ' = t := ht
      rw [hrem]
      have hred : (∃ o t', HasOp s o ∧ t' = o.filter (fun x => decide (x ≠ ' ')) ∧
          ((',' ∉ opcode ∧ BeforeFirst ',' t' opcode) ∨ (',' ∈ opcode ∧ t' = opcode) ∨
            ∃ p r, opcode = p ++ [','] ∧ t' = opcode ++ r)) ↔
          ((',' ∉ opcode ∧ BeforeFirst ',' t opcode) ∨ (',' ∈ opcode ∧ t = opcode) ∨
            ∃ p r, opcode = p ++ [','] ∧ t = opcode ++ r) := by
        constructor
        · rintro ⟨o, t', h1, rfl, h⟩
          rw [huniq o h1, ht] at h
          exact h
        · intro h
          exact ⟨_, t, hop, ht.symm, h⟩
      rw [hred]
      have hor : ∀ i : Str, (decide (i = opcode) || (hasSuffix (py ",") opcode &&
          hasPrefix opcode i)) = true ↔ i = opcode ∨ ((∃ p, opcode = p ++ [',']) ∧ ∃ r, i = opcode ++ r) := by
        intro i
        rw [Bool.or_eq_true, decide_eq_true_iff, Bool.and_eq_true, hasSuffix_iff, hasPrefix_iff]
      rw [hor]
      by_cases hc : ',' ∈ opcode
      · have hcb : opcode.contains ',' = true := contains_comma.2 hc
        rw [hcb]
        simp only [Bool.not_true, Bool.and_false, Bool.false_eq_true, if_false, hc,
          not_true_eq_false, false_and, true_and, false_or]
        constructor
        · rintro (h | ⟨⟨p, hp⟩, r, hr⟩)
          · exact Or.inl h
          · exact Or.inr ⟨p, r, hp, hr⟩
        · rintro (h | ⟨p, r, hp, hr⟩)
          · exact Or.inl h
          · exact Or.inr ⟨⟨p, hp⟩, r, hr⟩
      · have hcb : opcode.contains ',' = false := by
          rw [← Bool.not_eq_true, contains_comma]; exact hc
        have hsuf : ∀ p : Str, ¬ opcode = p ++ [','] := by
          rintro p rfl; exact hc (by simp)
        rw [hcb]
        simp only [Bool.not_false, Bool.and_true, hc, not_false_eq_true, true_and, false_and,
          hsuf, exists_false, or_false]
        have hsp : (if t.contains ',' = true then splitFirst t ',' else t) = splitFirst t ',' := by
          split
          · rfl
          · rename_i h; rw [splitFirst_id (by rw [← contains_comma]; exact h)]
        rw [hsp]
        constructor
        · rintro rfl; exact beforeFirst ',' t
        · exact beforeFirst_unique

end H800
