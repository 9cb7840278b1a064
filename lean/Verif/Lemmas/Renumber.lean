import Verif.Lemmas.Intersperse
import Verif.Lemmas.SymTools

/-!
The symbol table functions do not look at line numbers.
-/

namespace H800

open Spec

variable {kp : Keep}

section
variable {κ α β : Type} [DecidableEq κ]

theorem dget_onValues (f : α → β) (d : Dict κ α) (k : κ) :
    dget (onValues f d) k = (dget d k).map f := by
  induction d with
  | nil => rfl
  | cons p d ih =>
    unfold onValues at ih ⊢
    rw [List.map_cons, dget, dget, ih]
    split <;> rfl

theorem dset_onValues (f : α → β) (d : Dict κ α) (k : κ) (v : α) :
    dset (onValues f d) k (f v) = onValues f (dset d k v) := by
  induction d with
  | nil => rfl
  | cons p d ih =>
    unfold onValues at ih ⊢
    rw [List.map_cons, dset, dset]
    split
    · rfl
    · rw [ih]; rfl

end

theorem sortedKeys_onValues {α β : Type} (f : α → β) (d : Dict Str α) :
    sortedKeys (onValues f d) = sortedKeys d := by
  unfold sortedKeys onValues
  rw [List.map_map]
  rfl

theorem dat_onValues {κ α β : Type} [DecidableEq κ] (f : α → β) (d : Dict κ (Dict Str α)) (k : κ) :
    dat (onValues (onValues f) d) k = onValues f (dat d k) := by
  unfold dat
  rw [dget_onValues]
  cases dget d k <;> rfl

/-- A symbol table without line numbers. -/
def anonTab (kp : Keep) (t : Symtab) : Symtab := onValues (onValues (onValues (onValues (anonEntry kp)))) t

/-- The variables of `buildSymbolTable` without line numbers. -/
def anonState (kp : Keep) (st : BuildState) : BuildState :=
  ⟨(anonTab kp) st.symtab, st.subseg, st.errcount, st.diags.map (anonDiag kp)⟩

theorem report_anon (st : BuildState) (r : Diag) :
    (anonState kp st).report (anonDiag kp r) = anonState kp (st.report r) := by
  simp [anonState, BuildState.report]

theorem redefine_anon (st : BuildState) (seg tag kind command : Str) (e : SymEntry)
    (prevdef : Dict Str (Dict Str (Dict Str SymEntry)))
    (subs : Dict Str (Dict Str SymEntry)) (kinds : Dict Str SymEntry) :
    redefine (anonState kp st) seg tag kind command (anonEntry kp e)
        (onValues (onValues (onValues (anonEntry kp))) prevdef) (onValues (onValues (anonEntry kp)) subs)
        (onValues (anonEntry kp) kinds) =
      (redefine st seg tag kind command e prevdef subs kinds).map (anonState kp) := by
  rw [redefine, redefine, dget_onValues]
  cases dget prevdef kind with
  | none =>
    simp only [Option.map_none, Except.map]
    rw [dset_onValues]
    simp only [anonState]
    rw [dset_onValues, dset_onValues]
    unfold anonTab
    rw [dset_onValues]
  | some weird =>
    simp only [Option.map_some]
    split
    · rw [dget_onValues]
      cases dget weird (py "card") <;> rfl
    · simp only [Except.map, ← report_anon]
      rfl

theorem define_anon (st : BuildState) (seg tag kind command : Str) (e : SymEntry) :
    define (anonState kp st) seg tag kind command (anonEntry kp e) =
      (define st seg tag kind command e).map (anonState kp) := by
  rw [define, define]
  have hs : (anonState kp st).symtab = anonTab kp st.symtab := rfl
  have hb : (anonState kp st).subseg = st.subseg := rfl
  have one : ∀ k : Str, [(k, anonEntry kp e)] = onValues (anonEntry kp) [(k, e)] := fun _ => rfl
  have one2 : ∀ (k : Str) (d : Dict Str SymEntry), [(k, onValues (anonEntry kp) d)] =
    onValues (onValues (anonEntry kp)) [(k, d)] := fun _ _ => rfl
  have one3 : ∀ (k : Str) (d : Dict Str (Dict Str SymEntry)),
    [(k, onValues (onValues (anonEntry kp)) d)] =
      onValues (onValues (onValues (anonEntry kp))) [(k, d)] := fun _ _ => rfl
  have tab : ∀ (d : Dict Str (Dict Str (Dict Str SymEntry))),
      dset (anonTab kp st.symtab) tag (onValues (onValues (onValues (anonEntry kp))) d) =
        (anonTab kp) (dset st.symtab tag d) := fun d => dset_onValues _ _ _ _
  rw [hs, hb]
  unfold anonTab
  rw [dget_onValues]
  cases dget st.symtab tag with
  | none =>
    simp only [Option.map_none, Except.map]
    rw [one, one2, one3]
    exact congrArg (fun t => Except.ok (BuildState.mk t _ _ _)) (tab _)
  | some segs =>
    simp only [Option.map_some]
    rw [dget_onValues]
    cases dget segs seg with
    | none =>
      simp only [Option.map_none, Except.map]
      rw [one, one2, dset_onValues]
      exact congrArg (fun t => Except.ok (BuildState.mk t _ _ _)) (tab _)
    | some subs =>
      simp only [Option.map_some]
      rw [dget_onValues]
      cases dget subs st.subseg with
      | none =>
        simp only [Option.map_none, Except.map]
        rw [one, dset_onValues, dset_onValues]
        exact congrArg (fun t => Except.ok (BuildState.mk t _ _ _)) (tab _)
      | some kinds => exact redefine_anon st seg tag kind command e segs subs kinds

/-- Spaces taken out before or after stripping. -/
theorem filter_strip (t : Str) : (strip t).filter (· ≠ ' ') = strip (t.filter (· ≠ ' ')) := by
  obtain ⟨⟨h1, h2⟩, a, b, ha, hb, e⟩ := strip_stripped t
  symm
  refine stripped_iff.1 ⟨⟨?_, ?_⟩, a.filter (· ≠ ' '), b.filter (· ≠ ' '),
    fun c hc => ha c (List.mem_of_mem_filter hc), fun c hc => hb c (List.mem_of_mem_filter hc), ?_⟩
  · cases hs : strip t with
    | nil => intro c hc; cases hc
    | cons x r =>
      have hx : isSpace x = false := h1 x (by rw [hs]; rfl)
      have hne : x ≠ ' ' := fun h => by rw [h] at hx; cases hx
      intro c hc
      rw [List.filter_cons_of_pos (by simpa using hne)] at hc
      cases hc
      exact hx
  · rcases List.eq_nil_or_concat (strip t) with hs | ⟨r, x, hs⟩
    · rw [hs]; intro c hc; cases hc
    · rw [List.concat_eq_append] at hs
      have hx : isSpace x = false := h2 x (by rw [hs]; simp)
      have hne : x ≠ ' ' := fun h => by rw [h] at hx; cases hx
      intro c hc
      rw [hs, List.filter_append, List.filter_cons_of_pos (by simpa using hne)] at hc
      simp only [List.filter_nil, List.getLast?_append, List.getLast?_singleton, Option.some_or,
        Option.mem_def, Option.some.injEq] at hc
      exact hc ▸ hx
  · rw [← List.filter_append, ← List.filter_append, ← e]

theorem cleanLabel_anon (t : Str) : cleanLabel (anonLabel kp t) = cleanLabel t := by
  unfold anonLabel
  split
  · rfl
  · unfold cleanLabel remove
    rw [filter_strip, filter_strip, List.filter_filter]
    simp

theorem anonLabel_nil (t : Str) : anonLabel kp t = [] ↔ t = [] := by
  unfold anonLabel
  split
  · rfl
  · rename_i h
    simp only [Bool.or_eq_true, List.all_eq_true, decide_eq_true_eq, not_or, Classical.not_forall] at h
    obtain ⟨-, c, hc, hne⟩ := h
    constructor
    · intro h
      rw [List.filter_eq_nil_iff] at h
      exact absurd hne (by simpa using h c hc)
    · rintro rfl; rfl

theorem defineLabel_clean (upper : Str → Str) (seg : Str) (st : BuildState) (c : CodeCard)
    (label : Str) :
    defineLabel upper seg st c (anonLabel kp label) = defineLabel upper seg st c label := by
  rw [defineLabel, defineLabel, cleanLabel_anon]

theorem defineLabel_anon (upper : Str → Str) (seg : Str) (st : BuildState) (c : CodeCard)
    (label : Str) :
    defineLabel upper seg (anonState kp st) (anonCard kp c) label =
      (defineLabel upper seg st c label).map (anonState kp) := by
  rw [defineLabel, defineLabel]
  cases checkLabel upper (cleanLabel label) with
  | error e => simp only [Except.map, ← report_anon]; rfl
  | ok p =>
    obtain ⟨tag, tagtype⟩ := p
    simp only
    have : (anonCard kp c).operation = c.operation := rfl
    rw [this]
    cases c.operation with
    | none => simp only [Except.map, ← report_anon]; rfl
    | some command => exact define_anon st seg tag _ command ⟨c.file, c.line, c.lognum, tagtype, c⟩

theorem buildStep_anon (upper : Str → Str) (seg : Str) (st : BuildState) (c : CodeCard) :
    buildStep upper seg (anonState kp st) (anonCard kp c) =
      (buildStep upper seg st c).map (anonState kp) := by
  rw [buildStep, buildStep]
  have h1 : (anonCard kp c).column8 = c.column8 := rfl
  have h2 : (anonCard kp c).label = c.label.map (anonLabel kp) := rfl
  rw [h1, h2]
  split
  · rfl
  · simp only
    cases c.label with
    | none => rfl
    | some l =>
      cases l with
      | nil => rw [Option.map_some, (anonLabel_nil _).2 rfl]; rfl
      | cons x xs =>
        have g := defineLabel_clean (kp := kp) upper seg
          (anonState kp { st with subseg := nextSubseg st.subseg c.operation }) (anonCard kp c) (x :: xs)
        rw [Option.map_some]
        cases hl : anonLabel kp (x :: xs) with
        | nil => exact absurd ((anonLabel_nil _).1 hl) (by simp)
        | cons y ys =>
          rw [hl] at g
          exact g.trans (defineLabel_anon upper seg _ c (x :: xs))

theorem buildRun_anon (upper : Str → Str) (seg : Str) (cs : List CodeCard) (st : BuildState) :
    buildCardsRun upper seg (cs.map (anonCard kp)) (anonState kp st) =
      (anonState kp (buildCardsRun upper seg cs st).1, (buildCardsRun upper seg cs st).2) := by
  induction cs generalizing st with
  | nil => rfl
  | cons c cs ih =>
    rw [List.map_cons, buildCardsRun, buildCardsRun, buildStep_anon]
    cases buildStep upper seg st c with
    | error e => rfl
    | ok st' => exact ih st'

theorem buildRun_skip (upper : Str → Str) (seg : Str) (cs : List CodeCard) (st : BuildState) :
    buildCardsRun upper seg (cs.filter (counts kp)) st = buildCardsRun upper seg cs st := by
  induction cs generalizing st with
  | nil => rfl
  | cons c cs ih =>
    by_cases hc : counts kp c = true
    · rw [List.filter_cons_of_pos hc, buildCardsRun, buildCardsRun]
      cases buildStep upper seg st c with
      | error e => rfl
      | ok st' => exact ih st'
    · obtain ⟨h1, h2, h3⟩ := hasCode_false (counts_false (kp := kp) (by simpa using hc)).2
      rw [List.filter_cons_of_neg hc, buildCardsRun]
      have : buildStep upper seg st c = .ok st := by
        unfold buildStep
        rw [h1, h2]
        simp [nextSubseg]
      rw [this]
      exact ih st

/-- Building from cards with the same code but for line numbers. -/
theorem buildRun_same (upper : Str → Str) (seg : Str) {a b : List CodeCard}
    (hab : (a.filter (counts kp)).map (anonCard kp) = (b.filter (counts kp)).map (anonCard kp)) {st st' : BuildState}
    (h : anonState kp st = anonState kp st') :
    (anonState kp) (buildCardsRun upper seg a st).1 = anonState kp (buildCardsRun upper seg b st').1 ∧
      (buildCardsRun upper seg a st).2 = (buildCardsRun upper seg b st').2 := by
  have e1 := buildRun_anon (kp := kp) upper seg (a.filter (counts kp)) st
  have e2 := buildRun_anon (kp := kp) upper seg (b.filter (counts kp)) st'
  rw [hab, h, e2, buildRun_skip, buildRun_skip] at e1
  exact ⟨(congrArg Prod.fst e1).symm, (congrArg Prod.snd e1).symm⟩

/-! ### Looking things up -/

theorem foundKind_anon (t : Symtab) (s k : Str) : foundKind (anonTab kp t) s k = foundKind t s k := by
  unfold foundKind anonTab
  simp only [dat_onValues, sortedKeys_onValues, dget_onValues, Option.isSome_map]

theorem checkTable_anon (t : Symtab) (b : Bool) :
    checkSymbolTable (anonTab kp t) b = checkSymbolTable t b := by
  unfold checkSymbolTable
  simp only [foundKind_anon]
  unfold anonTab
  rw [sortedKeys_onValues]

theorem absoluteSegs_anon (segs : Dict Str (Dict Str (Dict Str SymEntry))) (found : Bool)
    (l : List Str) :
    absoluteSegs (onValues (onValues (onValues (anonEntry kp))) segs) found l =
      absoluteSegs segs found l := by
  induction l with
  | nil => rfl
  | cons s l ih =>
    rw [absoluteSegs, absoluteSegs, ih]
    simp only [dat_onValues, sortedKeys_onValues, dget_onValues, Option.isSome_map]

theorem absolute_anon (t : Symtab) : getAbsoluteSymbols (anonTab kp t) = getAbsoluteSymbols t := by
  have h : ∀ (l : List Str) (found : Bool),
      absoluteLoop (anonTab kp t) found l = absoluteLoop t found l := by
    intro l
    induction l with
    | nil => intro _; rfl
    | cons s l ih =>
      intro found
      rw [absoluteLoop, absoluteLoop]
      have : absoluteSegs (dat (anonTab kp t) s) found (sortedKeys (dat (anonTab kp t) s)) =
          absoluteSegs (dat t s) found (sortedKeys (dat t s)) := by
        unfold anonTab
        rw [dat_onValues, sortedKeys_onValues, absoluteSegs_anon]
      simp only [this, ih]
  unfold getAbsoluteSymbols
  rw [h]
  unfold anonTab
  rw [sortedKeys_onValues]

theorem find_anon (extract : Str → List Str → Nat → List Str) (t : Symtab) (name : Str)
    (b e f : Bool) :
    findSymbolDef extract (anonTab kp t) name none b e f =
      (anonFound kp (findSymbolDef extract t name none b e f).1,
        (findSymbolDef extract t name none b e f).2) := by
  have hk : sortedKeys (anonTab kp t) = sortedKeys t := sortedKeys_onValues _ _
  unfold findSymbolDef
  rw [absolute_anon, hk]
  split
  · unfold findExact
    rw [hk]
    split
    · simp only [anonFound]
      unfold anonTab
      rw [dat_onValues]
    · rfl
  · split <;> rfl

theorem dgetE_onValues {κ α β : Type} [DecidableEq κ] (f : α → β) (d : Dict κ α) (k : κ) :
    dgetE (onValues f d) k = (dgetE d k).map f := by
  unfold dgetE
  rw [dget_onValues]
  cases dget d k <;> rfl

theorem mapM_map_result {α β γ : Type} (g : β → γ) (f : α → Py β) (f' : α → Py γ)
    (h : ∀ x, f' x = (f x).map g) (l : List α) : l.mapM f' = (l.mapM f).map (List.map g) := by
  induction l with
  | nil => rfl
  | cons x l ih =>
    rw [List.mapM_cons, List.mapM_cons, h x, ih]
    cases f x with
    | error e => rfl
    | ok y =>
      cases l.mapM f with
      | error e => rfl
      | ok ys => rfl

theorem kindLines_anon (d : Dict Str SymEntry) :
    kindLines (onValues (anonEntry kp) d) = (kindLines d).map (List.map (anonLine kp)) := by
  unfold kindLines
  rw [sortedKeys_onValues]
  refine mapM_map_result (anonLine kp) _ _ (fun k => ?_) _
  rw [dgetE_onValues]
  cases dgetE d k with
  | error e => rfl
  | ok e =>
    show entryLine k (anonEntry kp e) = (entryLine k e).map (anonLine kp)
    rw [entryLine, entryLine]
    have : (anonEntry kp e).file = e.file.map (anonName kp) := rfl
    rw [this]
    cases e.file with
    | none => rfl
    | some f =>
      obtain ⟨b, l, t⟩ := kp
      cases b <;> cases l <;> cases t <;> rfl

theorem flatten_anon (l : List (List ListLine)) :
    (l.map (List.map (anonLine kp))).flatten = l.flatten.map (anonLine kp) := by
  rw [List.map_flatten]

theorem subLines_anon (d : Dict Str (Dict Str SymEntry)) :
    subLines (onValues (onValues (anonEntry kp)) d) = (subLines d).map (List.map (anonLine kp)) := by
  unfold subLines
  rw [sortedKeys_onValues, mapM_map_result (List.map (anonLine kp)) (fun k => do
    return .sub k :: (← kindLines (← dgetE d k))) _ (fun k => ?_) _]
  · cases (sortedKeys d).mapM fun k => (do return .sub k :: (← kindLines (← dgetE d k)) : Py (List ListLine)) with
    | error e => rfl
    | ok l => exact congrArg Except.ok (flatten_anon l)
  · rw [dgetE_onValues]
    cases dgetE d k with
    | error e => rfl
    | ok e =>
      simp only [Except.map, py_bind_ok]
      rw [kindLines_anon]
      cases kindLines e <;> rfl

theorem segLines_anon (d : Dict Str (Dict Str (Dict Str SymEntry))) :
    segLines (onValues (onValues (onValues (anonEntry kp))) d) = (segLines d).map (List.map (anonLine kp)) := by
  unfold segLines
  rw [sortedKeys_onValues, mapM_map_result (List.map (anonLine kp)) (fun k => do
    return .seg k :: (← subLines (← dgetE d k))) _ (fun k => ?_) _]
  · cases (sortedKeys d).mapM fun k => (do return .seg k :: (← subLines (← dgetE d k)) : Py (List ListLine)) with
    | error e => rfl
    | ok l => exact congrArg Except.ok (flatten_anon l)
  · rw [dgetE_onValues]
    cases dgetE d k with
    | error e => rfl
    | ok e =>
      simp only [Except.map, py_bind_ok]
      rw [subLines_anon]
      cases subLines e <;> rfl

theorem tableLines_anon (t : Symtab) :
    tableLines (anonTab kp t) = (tableLines t).map (List.map (anonLine kp)) := by
  unfold tableLines anonTab
  rw [sortedKeys_onValues, mapM_map_result (List.map (anonLine kp)) (fun k => do
    return .sym k :: (← segLines (← dgetE t k))) _ (fun k => ?_) _]
  · cases (sortedKeys t).mapM fun k => (do return .sym k :: (← segLines (← dgetE t k)) : Py (List ListLine)) with
    | error e => rfl
    | ok l => exact congrArg Except.ok (flatten_anon l)
  · rw [dgetE_onValues]
    cases dgetE t k with
    | error e => rfl
    | ok e =>
      simp only [Except.map, py_bind_ok]
      rw [segLines_anon]
      cases segLines e <;> rfl

end H800
