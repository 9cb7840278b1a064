import Verif.Lemmas.Renumber
import Verif.Props.Order

/-!
Lemmas about what the tools report about decks with the same code.
-/

namespace H800

open Spec

variable {kp : Keep}

/-- A loop over cards that does not look at line numbers and passes over cards without code. -/
theorem fold_same {σ ε : Type} (E : σ → ε) (step : σ → CodeCard → σ)
    (h1 : ∀ st st' c c', E st = E st' → anonCard kp c = anonCard kp c' → E (step st c) = E (step st' c'))
    (h2 : ∀ st c, counts kp c = false → E (step st c) = E st) {a b : List CodeCard}
    (hab : (a.filter (counts kp)).map (anonCard kp) = (b.filter (counts kp)).map (anonCard kp)) {st st' : σ}
    (h : E st = E st') : E (a.foldl step st) = E (b.foldl step st') := by
  have cong : ∀ (x y : List CodeCard), x.map (anonCard kp) = y.map (anonCard kp) → ∀ st st', E st = E st' →
      E (x.foldl step st) = E (y.foldl step st') := by
    intro x
    induction x with
    | nil => intro y hxy st st' h; cases y with
      | nil => exact h
      | cons d y => cases hxy
    | cons c x ih => intro y hxy st st' h; cases y with
      | nil => cases hxy
      | cons d y =>
        rw [List.map_cons, List.map_cons, List.cons.injEq] at hxy
        exact ih y hxy.2 _ _ (h1 _ _ _ _ h hxy.1)
  have skip : ∀ (x : List CodeCard) (st : σ),
      E (x.foldl step st) = E ((x.filter (counts kp)).foldl step st) := by
    intro x
    induction x with
    | nil => intro st; rfl
    | cons c x ih =>
      intro st
      by_cases hc : counts kp c = true
      · rw [List.filter_cons_of_pos hc]; exact ih _
      · rw [List.filter_cons_of_neg hc, List.foldl_cons, ih]
        exact cong _ _ rfl _ _ (h2 _ _ (by simpa using hc))
  rw [skip, skip b]
  exact cong _ _ hab _ _ h

/-! ### check-instructions -/

/-- The variables of check-instructions without line numbers and line count. -/
def anonCheckState (kp : Keep) (st : CheckStateV) : CheckStateV :=
  ⟨st.errcount, if kp.lines then st.linecount else 0, st.instrcount, st.instrtab, st.out.filterMap (anonMsg kp (anonCheck kp))⟩

theorem num_succ {b : Bool} {m n : Nat} (h : (if b then m else 0) = if b then n else 0) :
    (if b then m + 1 else 0) = if b then n + 1 else 0 := by
  cases b
  · rfl
  · simpa using h

theorem lines_msg {m n : Nat} (h : (if kp.lines then m else 0) = if kp.lines then n else 0) :
    anonMsg kp (anonCheck kp) (.msg (.lines m)) = anonMsg kp (anonCheck kp) (.msg (.lines n)) ∧
      anonMsg kp (anonParse kp) (.msg (.inr (.lines m))) =
        anonMsg kp (anonParse kp) (.msg (.inr (.lines n))) := by
  unfold anonMsg anonParse anonCheck
  cases hk : kp.lines with
  | false => exact ⟨rfl, rfl⟩
  | true =>
    rw [hk] at h
    cases h
    exact ⟨rfl, rfl⟩

theorem checkStepV_same (v : Bool) (opts : CheckOpts) (st st' : CheckStateV) (c c' : CodeCard)
    (h : anonCheckState kp st = anonCheckState kp st') (hc : anonCard kp c = anonCard kp c') :
    (anonCheckState kp) (checkStepV v opts st c) = anonCheckState kp (checkStepV v opts st' c') := by
  obtain ⟨a1, a2, a3, a4, a5⟩ := st
  obtain ⟨b1, b2, b3, b4, b5⟩ := st'
  simp only [anonCheckState, CheckStateV.mk.injEq] at h
  obtain ⟨rfl, hl, rfl, rfl, ho⟩ := h
  replace hl := num_succ hl
  have hi : c'.instruction = c.instruction := (congrArg CodeCard.instruction hc).symm
  have h8 : c'.column8 = c.column8 := (congrArg CodeCard.column8 hc).symm
  have app : ∀ (x y : List (VMsg CheckMsg)) (m m' : VMsg CheckMsg),
      x.filterMap (anonMsg kp (anonCheck kp)) = y.filterMap (anonMsg kp (anonCheck kp)) →
      (anonMsg kp) (anonCheck kp) m = anonMsg kp (anonCheck kp) m' →
      (x ++ [m]).filterMap (anonMsg kp (anonCheck kp)) = (y ++ [m']).filterMap (anonMsg kp (anonCheck kp)) := by
    intro x y m m' h1 h2
    simp only [List.filterMap_append, h1, List.filterMap_cons, h2]
  have k1 : anonMsg kp (anonCheck kp) (.msg (.card c)) = anonMsg kp (anonCheck kp) (.msg (.card c')) := by
    simp [anonMsg, anonCheck, hc]
  have k2 : anonMsg kp (anonCheck kp) (.msg (.invalid c)) = anonMsg kp (anonCheck kp) (.msg (.invalid c')) := by
    simp [anonMsg, anonCheck, hc]
  have k3 : anonMsg kp (anonCheck kp) (.starred c) = anonMsg kp (anonCheck kp) (.starred c') := by
    simp [anonMsg, hc]
  have ho1 : (if opts.printOpcodes then a5 ++ [.msg (.card c)] else a5).filterMap (anonMsg kp (anonCheck kp)) =
      (if opts.printOpcodes then b5 ++ [.msg (.card c')] else b5).filterMap (anonMsg kp (anonCheck kp)) := by
    split
    · exact app _ _ _ _ ho k1
    · exact ho
  unfold checkStepV
  rw [hi, h8]
  cases c.instruction with
  | none => simp only [anonCheckState, ho, hl]
  | some s => cases s with
    | nil => simp only [anonCheckState, ho, hl]
    | cons x xs =>
      simp only
      split
      · cases v
        · simp only [anonCheckState, hl, ho1, Bool.false_eq_true, if_false]
        · simp only [anonCheckState, hl, if_true]
          rw [app _ _ _ _ ho1 k3]
      · split
        · simp only [anonCheckState, hl]
          rw [app _ _ _ _ ho1 k2]
        · split
          · split
            · simp only [anonCheckState, hl, ho1]
            · simp only [anonCheckState, hl]
              rw [app _ _ _ _ ho1 k2]
          · simp only [anonCheckState, hl, ho1]

theorem checkStepV_idle (v : Bool) (opts : CheckOpts) (st : CheckStateV) (c : CodeCard)
    (h : counts kp c = false) : anonCheckState kp (checkStepV v opts st c) = anonCheckState kp st := by
  unfold checkStepV
  obtain ⟨h1, h2⟩ := counts_false h
  rw [(hasCode_false h2).2.2]
  simp [anonCheckState, h1]

theorem checkFilesV_same {fs fs' : FileSystem} {fuel fuel' : Nat} (v : Bool)
    (opts : CheckOpts) {files files' : List Str}
    (hd : List.Forall₂ (SameFile kp v fs fs' fuel fuel') files files') (st st' : CheckStateV)
    (hst : anonCheckState kp st = anonCheckState kp st') :
    (anonCheckState kp) (checkFilesV v fs fuel opts files st).1 =
        (anonCheckState kp) (checkFilesV v fs' fuel' opts files' st').1 ∧
      (checkFilesV v fs fuel opts files st).2 = (checkFilesV v fs' fuel' opts files' st').2 := by
  induction hd generalizing st st' with
  | nil => exact ⟨hst, rfl⟩
  | cons hf _ ih =>
    obtain ⟨o, o', ho, -, ⟨e, h1, h2⟩ | ⟨x, y, h1, h2, hxy⟩⟩ := hf.1 _ (anonCheck kp)
    all_goals
      have hst2 : anonCheckState kp { st with out := st.out ++ o } =
          (anonCheckState kp) { st' with out := st'.out ++ o' } := by
        simp only [anonCheckState, CheckStateV.mk.injEq] at hst ⊢
        refine ⟨hst.1, hst.2.1, hst.2.2.1, hst.2.2.2.1, ?_⟩
        rw [List.filterMap_append, List.filterMap_append, hst.2.2.2.2, ho]
      rw [checkFilesV, checkFilesV, h1, h2]
    · exact ⟨hst2, rfl⟩
    · exact ih _ _ (fold_same (anonCheckState kp) (checkStepV v opts) (checkStepV_same v opts)
        (checkStepV_idle v opts) hxy hst2)

/-- The same variables at the end of the loop over the files make the same report. -/
theorem check_states {fs fs' : FileSystem} {fuel fuel' : Nat} (v : Bool) (opts : CheckOpts)
    {args args' : List Str} (hl : args.length < 1 ↔ args'.length < 1)
    (h1 : anonCheckState kp (checkFilesV v fs fuel opts args CheckStateV.init).1 =
      anonCheckState kp (checkFilesV v fs' fuel' opts args' CheckStateV.init).1)
    (h2 : (checkFilesV v fs fuel opts args CheckStateV.init).2 =
      (checkFilesV v fs' fuel' opts args' CheckStateV.init).2) :
    (anonRun kp) (anonCheck kp) (checkInstructionsV v fs fuel opts args) =
      (anonRun kp) (anonCheck kp) (checkInstructionsV v fs' fuel' opts args') := by
  unfold checkInstructionsV
  by_cases hc : args.length < 1
  · rw [if_pos hc, if_pos (hl.1 hc)]
  · rw [if_neg hc, if_neg (fun h => hc (hl.2 h))]
    generalize checkFilesV v fs fuel opts args CheckStateV.init = p at h1 h2
    generalize checkFilesV v fs' fuel' opts args' CheckStateV.init = q at h1 h2
    obtain ⟨⟨a1, a2, a3, a4, a5⟩, r⟩ := p
    obtain ⟨⟨b1, b2, b3, b4, b5⟩, r'⟩ := q
    simp only [anonCheckState, CheckStateV.mk.injEq] at h1 h2
    obtain ⟨rfl, hl, rfl, rfl, ho⟩ := h1
    replace hl := (lines_msg hl).1
    subst h2
    cases r with
    | error e => simp only [anonRun, ho]
    | ok u =>
      simp only
      split
      · split
        · rename_i l e _
          simp only [anonRun, List.map_cons, List.filterMap_append, List.filterMap_cons, ho, hl]
        · rename_i l _
          simp only [anonRun, List.cons_append, List.map_cons, List.filterMap_append,
            List.filterMap_cons, ho, hl]
          rfl
      · simp only [anonRun, List.filterMap_append, ho]
        rfl

theorem check_decks {fs fs' : FileSystem} {fuel fuel' : Nat} (v : Bool)
    (opts : CheckOpts) {args args' : List Str}
    (hd : List.Forall₂ (SameFile kp v fs fs' fuel fuel') args args') :
    (anonRun kp) (anonCheck kp) (checkInstructionsV v fs fuel opts args) =
      (anonRun kp) (anonCheck kp) (checkInstructionsV v fs' fuel' opts args') := by
  obtain ⟨h1, h2⟩ := checkFilesV_same v opts hd CheckStateV.init CheckStateV.init rfl
  exact check_states v opts (by rw [hd.length_eq]) h1 h2

/-! ### The symbol tools -/

theorem anonSym_diags (d : List Diag) :
    (d.map fun d => VMsg.msg (SymMsg.diag d)).filterMap (anonMsg kp (anonSym kp)) =
      (d.map (anonDiag kp)).map fun d => VMsg.msg (SymMsg.diag d) := by
  induction d with
  | nil => rfl
  | cons x d ih => rw [List.map_cons, List.filterMap_cons, ih]; rfl

theorem buildV_same {fs fs' : FileSystem} {fuel fuel' : Nat} (v : Bool)
    (upper : Str → Str) {f f' : Str}
    (hd : SameFile kp v fs fs' fuel fuel' f f') {t t' : Symtab} (ht : anonTab kp t = anonTab kp t') :
    (buildV v upper fs fuel f t).1.filterMap (anonMsg kp (anonSym kp)) =
        (buildV v upper fs' fuel' f' t').1.filterMap (anonMsg kp (anonSym kp)) ∧
      (anonState kp) (buildV v upper fs fuel f t).2.1 = anonState kp (buildV v upper fs' fuel' f' t').2.1 ∧
      (buildV v upper fs fuel f t).2.2 = (buildV v upper fs' fuel' f' t').2.2 := by
  have hst : (anonState kp) ⟨t, py "1", 0, []⟩ = (anonState kp) ⟨t', py "1", 0, []⟩ := by
    simp only [anonState, ht]
  obtain ⟨o, o', ho, -, ⟨e, h1, h2⟩ | ⟨x, y, h1, h2, hxy⟩⟩ :=
    hd.1 _ (anonSym kp)
  · rw [buildV, buildV, h1, h2]
    exact ⟨ho, hst, rfl⟩
  · rw [buildV, buildV, h1, h2, hd.2.1]
    obtain ⟨k1, k2⟩ := buildRun_same upper (splitFirst f' '.') hxy hst
    refine ⟨?_, k1, k2⟩
    simp only [List.filterMap_append, ho, anonSym_diags]
    rw [show ∀ s : BuildState, s.diags.map (anonDiag kp) = (anonState kp s).diags from fun _ => rfl, k1]
    rfl

theorem buildFilesV_same {fs fs' : FileSystem} {fuel fuel' : Nat} (v : Bool)
    (upper : Str → Str) (ann : Bool) {files files' : List Str}
    (hd : List.Forall₂ (SameFile kp v fs fs' fuel fuel') files files') {t t' : Symtab} (ht : anonTab kp t = anonTab kp t')
    (n : Nat) :
    (buildFilesV v upper fs fuel ann files t n).1.filterMap (anonMsg kp (anonSym kp)) =
        (buildFilesV v upper fs' fuel' ann files' t' n).1.filterMap (anonMsg kp (anonSym kp)) ∧
      (anonTab kp) (buildFilesV v upper fs fuel ann files t n).2.1 =
        (anonTab kp) (buildFilesV v upper fs' fuel' ann files' t' n).2.1 ∧
      (buildFilesV v upper fs fuel ann files t n).2.2 =
        (buildFilesV v upper fs' fuel' ann files' t' n).2.2 := by
  induction hd generalizing t t' n with
  | nil => exact ⟨rfl, ht, rfl⟩
  | @cons f f' files files' hf _ ih =>
    obtain ⟨h1, h2, h3⟩ := buildV_same v upper hf ht
    rw [buildFilesV, buildFilesV]
    generalize buildV v upper fs fuel f t = p at h1 h2 h3
    generalize buildV v upper fs' fuel' f' t' = q at h1 h2 h3
    obtain ⟨o, ⟨a1, a2, a3, a4⟩, r⟩ := p
    obtain ⟨o', ⟨b1, b2, b3, b4⟩, r'⟩ := q
    simp only [anonState, BuildState.mk.injEq] at h1 h2 h3
    obtain ⟨k1, rfl, rfl, k4⟩ := h2
    subst h3
    cases r with
    | error e => exact ⟨h1, k1, rfl⟩
    | ok u =>
      obtain ⟨i1, i2, i3⟩ := ih k1 (n + a3)
      refine ⟨?_, i2, i3⟩
      have hm : ((if ann then [.msg (.fileErrs f a3)] else []).filterMap (anonMsg kp (anonSym kp))) =
          (if ann then [.msg (.fileErrs f' a3)] else []).filterMap (anonMsg kp (anonSym kp)) := by
        cases ann
        · rfl
        · simp [anonMsg, anonSym, hf.2.2]
      simp only [List.filterMap_append, h1, i1, hm]

theorem undefined_anon (extract : Str → List Str → Nat → List Str) (t : Symtab) (l : List Str) :
    undefinedMsgs extract (anonTab kp t) l = undefinedMsgs extract t l := by
  have : ∀ s, matchesOf (findSymbolDef extract (anonTab kp t) s none false false true) =
      matchesOf (findSymbolDef extract t s none false false true) := by
    intro s
    rw [find_anon]
    generalize findSymbolDef extract t s none false false true = p
    obtain ⟨r, n⟩ := p
    cases r <;> rfl
  unfold undefinedMsgs
  simp only [this]

theorem checkSymbols_decks {fs fs' : FileSystem} {fuel fuel' : Nat} (v : Bool)
    (upper : Str → Str) (extract : Str → List Str → Nat → List Str) (complex : Bool) {args args' : List Str}
    (hd : List.Forall₂ (SameFile kp v fs fs' fuel fuel') args args') :
    (anonRun kp) (anonSym kp) (checkSymbolsV v upper extract fs fuel complex args) =
      (anonRun kp) (anonSym kp) (checkSymbolsV v upper extract fs' fuel' complex args') := by
  unfold checkSymbolsV
  rw [hd.length_eq]
  split
  · rfl
  · obtain ⟨h1, h2, h3⟩ := buildFilesV_same v upper true hd (t := []) (t' := []) rfl 0
    generalize buildFilesV v upper fs fuel true args [] 0 = p at h1 h2 h3
    generalize buildFilesV v upper fs' fuel' true args' [] 0 = q at h1 h2 h3
    obtain ⟨o, t, n, r⟩ := p
    obtain ⟨o', t', n', r'⟩ := q
    simp only [Prod.mk.injEq] at h1 h2 h3
    obtain ⟨rfl, rfl⟩ := h3
    cases r with
    | error e => simp only [anonRun, h1]
    | ok u =>
      have e1 : checkSymbolTable t complex = checkSymbolTable t' complex := by
        rw [← checkTable_anon, h2, checkTable_anon]
      have e2 : ∀ l, undefinedMsgs extract t l = undefinedMsgs extract t' l := by
        intro l
        rw [← undefined_anon, h2, undefined_anon]
      simp only [anonRun, List.filterMap_append, h1, e1, e2]

theorem findSymbols_decks {fs fs' : FileSystem} {fuel fuel' : Nat} (v : Bool)
    (upper : Str → Str) (extract : Str → List Str → Nat → List Str) (b e z x : Bool)
    {args args' : List Str} (hw : args.head? = args'.head?)
    (hd : List.Forall₂ (SameFile kp v fs fs' fuel fuel') (args.drop 1) (args'.drop 1)) :
    (anonRun kp) (anonSym kp) (findSymbolsV v upper extract fs fuel b e z x args) =
      (anonRun kp) (anonSym kp) (findSymbolsV v upper extract fs' fuel' b e z x args') := by
  have hl := hd.length_eq
  unfold findSymbolsV
  match args, args' with
  | [], [] => rfl
  | [], _ :: _ => cases hw
  | _ :: _, [] => cases hw
  | [_], [_] => rfl
  | [_], _ :: _ :: _ => cases hl
  | _ :: _ :: _, [_] => cases hl
  | s :: f :: files, s' :: f' :: files' =>
    cases hw
    split
    · rfl
    · simp only
      replace hd : List.Forall₂ (SameFile kp v fs fs' fuel fuel') (f :: files) (f' :: files') := hd
      obtain ⟨h1, h2, h3⟩ := buildFilesV_same v upper true hd (t := []) (t' := []) rfl 0
      generalize buildFilesV v upper fs fuel true (f :: files) [] 0 = p at h1 h2 h3
      generalize buildFilesV v upper fs' fuel' true (f' :: files') [] 0 = q at h1 h2 h3
      obtain ⟨o, t, n, r⟩ := p
      obtain ⟨o', t', n', r'⟩ := q
      simp only [Prod.mk.injEq] at h1 h2 h3
      obtain ⟨rfl, rfl⟩ := h3
      cases r with
      | error e => simp only [anonRun, h1]
      | ok u =>
        have e1 := find_anon (kp := kp) extract t s b e z
        rw [h2, find_anon] at e1
        simp only
        generalize findSymbolDef extract t s none b e z = p at e1
        generalize findSymbolDef extract t' s none b e z = q at e1
        obtain ⟨p, m⟩ := p
        obtain ⟨q, m'⟩ := q
        simp only [Prod.mk.injEq] at e1
        obtain ⟨e1, rfl⟩ := e1
        simp only [anonRun, List.filterMap_append, List.map_append, h1]
        congr 3
        cases p with
        | nothing => cases q with
          | nothing => rfl
          | names l => cases e1
          | defs d => cases e1
        | names l => cases q with
          | nothing => cases e1
          | names l' =>
            simp only [anonFound, Found.names.injEq] at e1
            rw [e1]
          | defs d => cases e1
        | defs d => cases q with
          | nothing => cases e1
          | names l => cases e1
          | defs d' =>
            simp only [anonFound, Found.defs.injEq] at e1
            cases d with
            | nil => cases d' with
              | nil => rfl
              | cons y d' => cases e1
            | cons y d => cases d' with
              | nil => cases e1
              | cons y' d' =>
                simp only [List.map_cons, List.map_nil, List.filterMap_cons, List.filterMap_nil,
                  anonMsg, anonSym, anonFound, e1]

theorem anonSym_lines (l : List ListLine) :
    ((l.map SymMsg.listing).map VMsg.msg).filterMap (anonMsg kp (anonSym kp)) =
      ((l.map (anonLine kp)).map SymMsg.listing).map VMsg.msg := by
  induction l with
  | nil => rfl
  | cons x l ih => rw [List.map_cons, List.map_cons, List.filterMap_cons, ih]; rfl

theorem listSymbols_decks {fs fs' : FileSystem} {fuel fuel' : Nat} (v : Bool)
    (upper : Str → Str) {args args' : List Str}
    (hd : List.Forall₂ (SameFile kp v fs fs' fuel fuel') args args') :
    (anonRun kp) (anonSym kp) (listSymbolsV v upper fs fuel args) =
      (anonRun kp) (anonSym kp) (listSymbolsV v upper fs' fuel' args') := by
  unfold listSymbolsV
  rw [hd.length_eq]
  split
  · rfl
  · obtain ⟨h1, h2, h3⟩ := buildFilesV_same v upper false hd (t := []) (t' := []) rfl 0
    generalize buildFilesV v upper fs fuel false args [] 0 = p at h1 h2 h3
    generalize buildFilesV v upper fs' fuel' false args' [] 0 = q at h1 h2 h3
    obtain ⟨o, t, n, r⟩ := p
    obtain ⟨o', t', n', r'⟩ := q
    simp only [Prod.mk.injEq] at h1 h2 h3
    obtain ⟨rfl, rfl⟩ := h3
    cases r with
    | error e => simp only [anonRun, h1]
    | ok u =>
      have e1 := tableLines_anon (kp := kp) t
      rw [h2, tableLines_anon] at e1
      simp only
      cases k1 : tableLines t with
      | error e => cases k2 : tableLines t' with
        | error e' => rw [k1, k2] at e1; cases e1; simp only [anonRun, h1]
        | ok l => rw [k1, k2] at e1; cases e1
      | ok l => cases k2 : tableLines t' with
        | error e' => rw [k1, k2] at e1; cases e1
        | ok l' =>
          rw [k1, k2] at e1
          simp only [Except.map, Except.ok.injEq] at e1
          simp only [anonRun, List.filterMap_append, List.map_append, h1, anonSym_lines, e1]

/-! ### parse -/

theorem anonParse_inl (l : List (VMsg SymMsg)) :
    (l.map VMsg.inl).filterMap (anonMsg kp (anonParse kp)) =
      (l.filterMap (anonMsg kp (anonSym kp))).map VMsg.inl := by
  induction l with
  | nil => rfl
  | cons x l ih =>
    rw [List.map_cons, List.filterMap_cons, List.filterMap_cons, ih]
    cases x with
    | msg m => cases m <;> rfl
    | reading f => simp only [VMsg.inl, anonMsg]; cases kp.names <;> rfl
    | meta_ f n => simp only [VMsg.inl, anonMsg]; cases kp.lines <;> rfl
    | starred c => rfl
    | wrote f => rfl

theorem parseSymbolsV_same {fs fs' : FileSystem} {fuel fuel' : Nat} (v : Bool)
    (upper : Str → Str) {files files' : List Str}
    (hd : List.Forall₂ (SameFile kp v fs fs' fuel fuel') files files') {t t' : Symtab} (ht : anonTab kp t = anonTab kp t') (n : Nat) :
    (parseSymbolsV v upper fs fuel files t n).1.filterMap (anonMsg kp (anonSym kp)) =
        (parseSymbolsV v upper fs' fuel' files' t' n).1.filterMap (anonMsg kp (anonSym kp)) ∧
      (parseSymbolsV v upper fs fuel files t n).2 = (parseSymbolsV v upper fs' fuel' files' t' n).2 := by
  induction hd generalizing t t' n with
  | nil => exact ⟨rfl, rfl⟩
  | @cons f f' files files' hf _ ih =>
    obtain ⟨h1, h2, h3⟩ := buildV_same v upper hf ht
    rw [parseSymbolsV, parseSymbolsV]
    generalize buildV v upper fs fuel f t = p at h1 h2 h3
    generalize buildV v upper fs' fuel' f' t' = q at h1 h2 h3
    obtain ⟨o, ⟨a1, a2, a3, a4⟩, r⟩ := p
    obtain ⟨o', ⟨b1, b2, b3, b4⟩, r'⟩ := q
    simp only [anonState, BuildState.mk.injEq] at h1 h2 h3
    obtain ⟨k1, rfl, rfl, k4⟩ := h2
    subst h3
    cases r with
    | error e => exact ⟨h1, rfl⟩
    | ok u =>
      obtain ⟨i1, i2⟩ := ih k1 a3
      refine ⟨?_, i2⟩
      have hm : anonMsg kp (anonSym kp) (.msg (.fileErrs f a3)) =
          anonMsg kp (anonSym kp) (.msg (.fileErrs f' a3)) := by
        simp [anonMsg, anonSym, hf.2.2]
      simp only [List.filterMap_append, List.filterMap_cons, h1, i1, hm]

/-- The variables of parse without line numbers and line count. -/
def anonParseState (kp : Keep) (st : Nat × Nat × List (VMsg ParseMsg)) : Nat × Nat × List (VMsg ParseMsg) :=
  (if kp.lines then st.1 else 0, st.2.1, st.2.2.filterMap (anonMsg kp (anonParse kp)))

theorem parseStepV_same (v debug : Bool) (st st' : Nat × Nat × List (VMsg ParseMsg)) (c c' : CodeCard)
    (h : anonParseState kp st = anonParseState kp st') (hc : anonCard kp c = anonCard kp c') :
    (anonParseState kp) (parseStepV v debug st c) = anonParseState kp (parseStepV v debug st' c') := by
  obtain ⟨a1, a2, a3⟩ := st
  obtain ⟨b1, b2, b3⟩ := st'
  simp only [anonParseState, Prod.mk.injEq] at h
  obtain ⟨hl, rfl, ho⟩ := h
  replace hl := num_succ hl
  have hi : c'.instruction = c.instruction := (congrArg CodeCard.instruction hc).symm
  have h8 : c'.column8 = c.column8 := (congrArg CodeCard.column8 hc).symm
  have app : ∀ (x y : List (VMsg ParseMsg)) (m m' : VMsg ParseMsg),
      x.filterMap (anonMsg kp (anonParse kp)) = y.filterMap (anonMsg kp (anonParse kp)) →
      (anonMsg kp) (anonParse kp) m = anonMsg kp (anonParse kp) m' →
      (x ++ [m]).filterMap (anonMsg kp (anonParse kp)) = (y ++ [m']).filterMap (anonMsg kp (anonParse kp)) := by
    intro x y m m' h1 h2
    simp only [List.filterMap_append, h1, List.filterMap_cons, h2]
  have k1 : anonMsg kp (anonParse kp) (.msg (.inr (.card c))) = anonMsg kp (anonParse kp) (.msg (.inr (.card c'))) := by
    simp [anonMsg, anonParse, anonCheck, hc]
  have k2 : anonMsg kp (anonParse kp) (.msg (.inr (.invalid c))) =
      (anonMsg kp) (anonParse kp) (.msg (.inr (.invalid c'))) := by
    simp [anonMsg, anonParse, anonCheck, hc]
  have k3 : anonMsg kp (anonParse kp) (.starred c) = anonMsg kp (anonParse kp) (.starred c') := by
    simp [anonMsg, hc]
  have ho1 : (if debug then a3 ++ [.msg (.inr (.card c))] else a3).filterMap (anonMsg kp (anonParse kp)) =
      (if debug then b3 ++ [.msg (.inr (.card c'))] else b3).filterMap (anonMsg kp (anonParse kp)) := by
    split
    · exact app _ _ _ _ ho k1
    · exact ho
  unfold parseStepV
  rw [hi, h8]
  cases c.instruction with
  | none => simp only [anonParseState, ho, hl]
  | some s => cases s with
    | nil => simp only [anonParseState, ho, hl]
    | cons x xs =>
      simp only
      split
      · cases v
        · simp only [anonParseState, hl, ho1, Bool.false_eq_true, if_false]
        · simp only [anonParseState, hl, if_true]
          rw [app _ _ _ _ ho1 k3]
      · split
        · simp only [anonParseState, hl]
          rw [app _ _ _ _ ho1 k2]
        · simp only [anonParseState, hl, ho1]

theorem parseStepV_idle (v debug : Bool) (st : Nat × Nat × List (VMsg ParseMsg)) (c : CodeCard)
    (h : counts kp c = false) : anonParseState kp (parseStepV v debug st c) = anonParseState kp st := by
  unfold parseStepV
  obtain ⟨h1, h2⟩ := counts_false h
  rw [(hasCode_false h2).2.2]
  simp [anonParseState, h1]

theorem parseDecksV_same {fs fs' : FileSystem} {fuel fuel' : Nat} (v debug : Bool)
    {files files' : List Str}
    (hd : List.Forall₂ (SameFile kp v fs fs' fuel fuel') files files') (st st' : Nat × Nat × List (VMsg ParseMsg))
    (hst : anonParseState kp st = anonParseState kp st') :
    (anonParseState kp) (parseDecksV v fs fuel debug files st).1 =
        (anonParseState kp) (parseDecksV v fs' fuel' debug files' st').1 ∧
      (parseDecksV v fs fuel debug files st).2 = (parseDecksV v fs' fuel' debug files' st').2 := by
  induction hd generalizing st st' with
  | nil => exact ⟨hst, rfl⟩
  | cons hf _ ih =>
    obtain ⟨n, m, out⟩ := st
    obtain ⟨n', m', out'⟩ := st'
    obtain ⟨o, o', ho, -, ⟨e, h1, h2⟩ | ⟨x, y, h1, h2, hxy⟩⟩ :=
      hf.1 _ (anonParse kp)
    all_goals
      have hst2 : anonParseState kp (n, m, out ++ o) = anonParseState kp (n', m', out' ++ o') := by
        simp only [anonParseState, Prod.mk.injEq] at hst ⊢
        refine ⟨hst.1, hst.2.1, ?_⟩
        rw [List.filterMap_append, List.filterMap_append, hst.2.2, ho]
      rw [parseDecksV, parseDecksV, h1, h2]
    · exact ⟨hst2, rfl⟩
    · exact ih _ _ (fold_same (anonParseState kp) (parseStepV v debug) (parseStepV_same v debug)
        (parseStepV_idle v debug) hxy hst2)

theorem parse_decks {fs fs' : FileSystem} {fuel fuel' : Nat} (v : Bool)
    (upper : Str → Str) (debug : Bool) {args args' : List Str}
    (hd : List.Forall₂ (SameFile kp v fs fs' fuel fuel') args args') :
    (anonRun kp) (anonParse kp) (parseV v upper fs fuel debug args) =
      (anonRun kp) (anonParse kp) (parseV v upper fs' fuel' debug args') := by
  unfold parseV
  rw [hd.length_eq]
  split
  · rfl
  · obtain ⟨h1, h2⟩ := parseSymbolsV_same v upper hd (t := []) (t' := []) rfl 0
    generalize parseSymbolsV v upper fs fuel args [] 0 = p at h1 h2
    generalize parseSymbolsV v upper fs' fuel' args' [] 0 = q at h1 h2
    obtain ⟨o, n, r⟩ := p
    obtain ⟨o', n', r'⟩ := q
    simp only [Prod.mk.injEq] at h1 h2
    obtain ⟨rfl, rfl⟩ := h2
    cases r with
    | error e => simp only [anonRun, anonParse_inl, h1]
    | ok u =>
      simp only
      obtain ⟨h3, h4⟩ := parseDecksV_same v debug hd (0, n, []) (0, n, []) rfl
      generalize parseDecksV v fs fuel debug args (0, n, []) = p at h3 h4
      generalize parseDecksV v fs' fuel' debug args' (0, n, []) = q at h3 h4
      obtain ⟨⟨l, e, x⟩, r⟩ := p
      obtain ⟨⟨l', e', x'⟩, r'⟩ := q
      simp only [anonParseState, Prod.mk.injEq] at h3 h4
      obtain ⟨hl, rfl, hx⟩ := h3
      replace hl := (lines_msg hl).2
      subst h4
      cases r with
      | error e => simp only [anonRun, List.filterMap_append, anonParse_inl, h1, hx]
      | ok u =>
        simp only [anonRun, List.filterMap_append, anonParse_inl, h1, hx, List.filterMap_cons, hl]

/-! ### list-instructions -/

theorem list_forall_same {a b : List CodeCard} (h : a.map (anonCard kp) = b.map (anonCard kp)) :
    List.Forall₂ (fun c c' => (anonCard kp) c = anonCard kp c') a b := by
  induction a generalizing b with
  | nil => cases b with
    | nil => exact .nil
    | cons d b => cases h
  | cons c a ih => cases b with
    | nil => cases h
    | cons d b =>
      rw [List.map_cons, List.map_cons, List.cons.injEq] at h
      exact .cons h.1 (ih h.2)

theorem listStepV_idle (v details : Bool) (opcode : Str) (c : CodeCard) (h : hasCode c = false) :
    listStepV v details opcode c = [] := by
  unfold listStepV
  rw [(hasCode_false h).2.1]

theorem listStepV_skip (v details : Bool) (opcode : Str) (a : List CodeCard) :
    (a.filter (counts kp)).flatMap (listStepV v details opcode) =
      a.flatMap (listStepV v details opcode) := by
  induction a with
  | nil => rfl
  | cons c a ih =>
    by_cases hc : counts kp c = true
    · rw [List.filter_cons_of_pos hc, List.flatMap_cons, List.flatMap_cons, ih]
    · rw [List.filter_cons_of_neg hc, List.flatMap_cons, ih,
        listStepV_idle _ _ _ _ (counts_false (by simpa using hc)).2, List.nil_append]

theorem listStepV_same (v details : Bool) (opcode : Str) (s s' : Src)
    (h : anonCard kp (srcCard s) = anonCard kp (srcCard s')) :
    List.Forall₂ (SameEntry kp details) (listStepV v details opcode (srcCard s))
      (listStepV v details opcode (srcCard s')) := by
  have ho : (srcCard s').operation = (srcCard s).operation := (congrArg CodeCard.operation h).symm
  have h8 : (srcCard s').column8 = (srcCard s).column8 := (congrArg CodeCard.column8 h).symm
  have hf : anonName kp s.file = anonName kp s'.file := Option.some.inj (congrArg CodeCard.file h)
  have hn : anonNum kp s.num = anonNum kp s'.num := congrArg CodeCard.line h
  have ht : anonText kp (s.text.filter (· ≠ '\n')) = anonText kp (s'.text.filter (· ≠ '\n')) :=
    congrArg CodeCard.text h
  have key : SameEntry kp details (.msg (listLine details (srcCard s)))
      (.msg (listLine details (srcCard s'))) := by
    cases hd : details with
    | false =>
      have : ∀ c, listLine false c = c.text := fun c => by
        simp only [listLine, Bool.false_eq_true, if_false]
      rw [this, this]
      exact .text _ _ rfl ht
    | true =>
      have l1 := listLine_lists true s
      have l2 := listLine_lists true s'
      exact .line s s' _ _ rfl hf hn ht (by simpa using l1) (by simpa using l2)
  have hl : listed opcode (srcCard s') = listed opcode (srcCard s) := by
    unfold listed
    rw [ho, h8]
  have hs : star (srcCard s') = star (srcCard s) := by
    unfold star
    rw [h8]
  rw [listStepV_eq, listStepV_eq, hl, hs, ho]
  split
  · exact .cons key .nil
  · split
    · exact .cons (.starred _ _ h) .nil
    · exact .nil

theorem listStepV_notComment (v details : Bool) (opcode : Str) (c : CodeCard) :
    ∀ m ∈ listStepV v details opcode c, notComment kp m = true := by
  rw [listStepV_eq]
  intro m hm
  split at hm
  · rw [List.mem_singleton] at hm; rw [hm]; rfl
  · split at hm
    · rw [List.mem_singleton] at hm; rw [hm]; rfl
    · cases hm

theorem forall_src {a b : List CodeCard} (ha : ∀ c ∈ a, ∃ s, c = srcCard s)
    (hb : ∀ c ∈ b, ∃ s, c = srcCard s)
    (h : List.Forall₂ (fun c c' => (anonCard kp) c = anonCard kp c') a b) (v details : Bool) (opcode : Str) :
    List.Forall₂ (SameEntry kp details) (a.flatMap (listStepV v details opcode))
      (b.flatMap (listStepV v details opcode)) := by
  induction h with
  | nil => exact .nil
  | @cons c d a b hcd _ ih =>
    obtain ⟨s, rfl⟩ := ha c List.mem_cons_self
    obtain ⟨s', rfl⟩ := hb d List.mem_cons_self
    rw [List.flatMap_cons, List.flatMap_cons]
    exact List.rel_append (listStepV_same v details opcode s s' hcd)
      (ih (fun c hc => ha c (List.mem_cons_of_mem _ hc)) (fun c hc => hb c (List.mem_cons_of_mem _ hc)))

theorem notes_same {v : Bool} {details : Bool} {o o' : List (VMsg Str)} (hn : OnlyNotes v o)
    (h : o.filter (notComment kp) = o'.filter (notComment kp)) :
    List.Forall₂ (SameEntry kp details) (o.filter (notComment kp)) (o'.filter (notComment kp)) := by
  rw [← h]
  have : ∀ m ∈ o.filter (notComment kp), SameEntry kp details m m := by
    intro m hm
    have h1 := (List.mem_filter.1 hm).1
    rcases (hn m h1).2 with ⟨f, rfl⟩ | ⟨f, n, rfl⟩
    · exact .reading f
    · exact .skipped f n
  rw [List.forall₂_same]
  exact this

theorem listFilesV_same {fs fs' : FileSystem} {fuel fuel' : Nat} (v details : Bool)
    (opcode : Str) {files files' : List Str}
    (hd : List.Forall₂ (SameFile kp v fs fs' fuel fuel') files files') :
    List.Forall₂ (SameEntry kp details) ((listFilesV v fs fuel details opcode files).1.filter (notComment kp))
        ((listFilesV v fs' fuel' details opcode files').1.filter (notComment kp)) ∧
      (listFilesV v fs fuel details opcode files).2 = (listFilesV v fs' fuel' details opcode files').2 := by
  induction hd with
  | nil => exact ⟨.nil, rfl⟩
  | @cons f f' files files' hf _ ih =>
    have hn := deckCardsV_notes (α := Str) v fs fuel f
    obtain ⟨o, o', -, ho, ⟨e, h1, h2⟩ | ⟨x, y, h1, h2, hxy⟩⟩ :=
      hf.1 Str some
    · rw [listFilesV, listFilesV, h1, h2]
      rw [h1] at hn
      exact ⟨notes_same hn ho, rfl⟩
    · rw [listFilesV, listFilesV, h1, h2]
      rw [h1] at hn
      refine ⟨?_, ih.2⟩
      simp only [List.filter_append]
      refine List.rel_append (List.rel_append (notes_same hn ho) ?_) ih.1
      have hk : ∀ a : List CodeCard, (a.flatMap (listStepV v details opcode)).filter (notComment kp) =
          a.flatMap (listStepV v details opcode) := by
        intro a
        rw [List.filter_eq_self]
        intro m hm
        obtain ⟨c, -, hc⟩ := List.mem_flatMap.1 hm
        exact listStepV_notComment v details opcode c m hc
      have hsrc : ∀ (z : List Src), ∀ c ∈ (z.map srcCard).filter (counts kp), ∃ s, c = srcCard s := by
        intro z c hc
        obtain ⟨s, -, e⟩ := List.mem_map.1 (List.mem_of_mem_filter hc)
        exact ⟨s, e.symm⟩
      rw [hk, hk, ← listStepV_skip (kp := kp), ← listStepV_skip (kp := kp) (a := y.map srcCard)]
      exact forall_src (hsrc x) (hsrc y) (list_forall_same hxy) v details opcode

theorem list_decks {fs fs' : FileSystem} {fuel fuel' : Nat} (v details : Bool)
    {args args' : List Str} (hw : args.head? = args'.head?)
    (hd : List.Forall₂ (SameFile kp v fs fs' fuel fuel') (args.drop 1) (args'.drop 1)) :
    List.Forall₂ (SameEntry kp details) ((listInstructionsV v fs fuel details args).1.filter (notComment kp))
        ((listInstructionsV v fs' fuel' details args').1.filter (notComment kp)) ∧
      (listInstructionsV v fs fuel details args).2 = (listInstructionsV v fs' fuel' details args').2 := by
  match args, args' with
  | [], [] => exact ⟨.nil, rfl⟩
  | [], _ :: _ => cases hw
  | _ :: _, [] => cases hw
  | opcode :: files, opcode' :: files' =>
    cases hw
    simp only [listInstructionsV]
    generalize (if opcode.contains ',' then splitFirst opcode ',' else opcode) = command
    by_cases hc : INSTRUCTIONS.contains command = true
    · rw [if_neg (not_not.2 hc), if_neg (not_not.2 hc)]
      exact listFilesV_same v details opcode hd
    · rw [if_pos hc, if_pos hc]
      exact ⟨.nil, rfl⟩

end H800
