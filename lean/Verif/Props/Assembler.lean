import Verif.Props.SymTools
import Verif.Spec.Assembler

/-!
Properties C113-C116: the assembler and its context.
-/

namespace H800

open Spec

/-- The assembler after creating the symbol tables of several files, none of which fails. -/
def createAll (upper : Str → Str) (fs : FileSystem) (fuel : Nat) (files : List Str)
    (a : Assembler) : Py Assembler :=
  files.foldlM (fun a f => match a.createSymbolTable upper fs fuel f with
    | (a', .ok _) => .ok a'
    | (_, .error e) => .error e) a

theorem createAll_build {upper : Str → Str} {fs : FileSystem} {fuel : Nat} {files : List Str}
    {a a' : Assembler} (h : createAll upper fs fuel files a = .ok a') (r : List Nat × Nat) :
    ∃ r', files.foldlM (fun r f => do
      let b ← buildSymbolTable upper fs fuel f r.1
      return (b.symtab, r.2.1 ++ [b.errcount], r.2.2 + b.errcount)) (a.symtab, r) =
      (.ok (a'.symtab, r') : Py (Symtab × List Nat × Nat)) := by
  induction files generalizing a r with
  | nil => cases h; exact ⟨r, rfl⟩
  | cons f files ih =>
    unfold createAll at h
    rw [List.foldlM_cons] at h
    unfold Assembler.createSymbolTable at h
    rw [List.foldlM_cons]
    cases hb : buildSymbolTable upper fs fuel f a.symtab with
    | error e => rw [hb] at h; cases h
    | ok b =>
      rw [hb] at h
      exact ih (a := { a with symtab := b.symtab }) h (r.1 ++ [b.errcount], r.2 + b.errcount)

/-- C113: after creating the symbol tables of several files in turn, the assembler's table records
exactly the last definition of every tag, segment, subsegment and kind in these files. -/
theorem C113_symbols (upper : Str → Str) (fs : FileSystem) (fuel : Nat) (files : List Str)
    (hp : PlainFiles files) (a : Assembler)
    (h : createAll upper fs fuel files Assembler.init = .ok a) :
    ∃ srcs, Read fs files srcs ∧
      (∀ tag seg sub kind e, Recorded a.symtab tag seg sub kind e → ∃ k i s tt,
        FinalDef upper srcs k i s tag tt seg sub kind ∧ Describes s tt e) ∧
      (∀ k i s tag tt seg sub kind, FinalDef upper srcs k i s tag tt seg sub kind →
        ∃ e, Recorded a.symtab tag seg sub kind e ∧ Describes s tt e) := by
  obtain ⟨r', hr⟩ := createAll_build h ([], 0)
  obtain ⟨srcs, h1, h2, -⟩ := buildAll_ok_from (plainFiles_iff.1 hp) plain4_nil hr
  refine ⟨srcs, h1, ?_, ?_⟩
  · intro tag seg sub kind e he
    rw [recorded_iff] at he
    have he' : lookup4 (buildSrcs upper [] srcs) tag seg sub kind = some e := by
      rw [← he]; exact congrArg (lookup4 · tag seg sub kind) h2.symm
    rcases (buildSrcs_recorded upper srcs [] (read_plain h1 hp) plain4_nil tag seg sub kind e).1 he'
      with ⟨k, i, s, tt, g1, rfl⟩ | ⟨g1, -⟩
    · exact ⟨k, i, s, tt, g1, entry_describes _ _⟩
    · cases g1
  · intro k i s tag tt seg sub kind hd
    refine ⟨_, (recorded_iff _ _ _ _ _ _).2 ?_, entry_describes s tt⟩
    have := (buildSrcs_recorded upper srcs [] (read_plain h1 hp) plain4_nil tag seg sub kind
      (entryOf (srcCard s) tt)).2 (Or.inl ⟨k, i, s, tt, hd, rfl⟩)
    rw [← this]
    exact congrArg (lookup4 · tag seg sub kind) h2

/-- C113 on two files: two symbols, of the three lines one is in error. -/
example : PlainFiles [py "A.arg", py "B.arg"] ∧
    (match createAll asciiUpper twoFs 10 [py "A.arg", py "B.arg"] Assembler.init with
      | .ok a => decide (a.symtab.length = 2)
      | .error _ => false) = true :=
  ⟨twoFs_plain, by decide +kernel⟩

/-- One pass over records that are all present. -/
theorem pass_present (cur : Option PRecord) (pre : List (Option PRecord)) (rs : List PRecord)
    (undef : List PRecord) :
    Assembler.pass cur pre.length rs.length (pre ++ rs.map some) undef =
      (pre ++ replaced cur rs, .ok (undef ++ incomplete rs)) := by
  induction rs generalizing pre undef with
  | nil => simp [Assembler.pass, replaced, incomplete]
  | cons r rs ih =>
    rw [List.length_cons, Assembler.pass]
    have hget : (pre ++ (r :: rs).map some)[pre.length]? = some (some r) := by simp
    rw [hget]
    simp only
    by_cases hr : r.parseable = true
    · rw [if_pos hr]
      have hset : (pre ++ (r :: rs).map some).set pre.length cur =
          (pre ++ [cur]) ++ rs.map some := by
        rw [List.set_append_right _ _ (le_refl _)]
        simp
      have := ih (pre ++ [cur]) (if r.complete then undef else undef ++ [r])
      rw [List.length_append, List.length_singleton] at this
      rw [hset, this]
      cases hc : r.complete <;> simp [replaced, incomplete, hr, hc]
    · rw [if_neg hr]
      have := ih (pre ++ [some r]) undef
      rw [List.length_append, List.length_singleton, List.append_assoc] at this
      have e : [some r] ++ rs.map some = (r :: rs).map some := rfl
      rw [e] at this
      rw [this]
      simp [replaced, incomplete, hr]

/-- One pass over records that include None stops with AttributeError. -/
theorem pass_none (cur : Option PRecord) (pre : List (Option PRecord)) (rs : List (Option PRecord))
    (h : none ∈ rs) (undef : List PRecord) :
    (Assembler.pass cur pre.length rs.length (pre ++ rs) undef).2 = .error .attributeError := by
  induction rs generalizing pre undef with
  | nil => cases h
  | cons o rs ih =>
    rw [List.length_cons, Assembler.pass]
    have hget : (pre ++ o :: rs)[pre.length]? = some o := by simp
    rw [hget]
    cases o with
    | none => rfl
    | some r =>
      have hrs : none ∈ rs := by simpa using h
      simp only
      by_cases hr : r.parseable = true
      · rw [if_pos hr]
        have hset : (pre ++ some r :: rs).set pre.length cur = (pre ++ [cur]) ++ rs := by
          rw [List.set_append_right _ _ (le_refl _)]
          simp
        have := ih (pre ++ [cur]) hrs (if r.complete then undef else undef ++ [r])
        rw [List.length_append, List.length_singleton] at this
        rw [hset]
        exact this
      · rw [if_neg hr]
        have := ih (pre ++ [some r]) hrs undef
        rw [List.length_append, List.length_singleton, List.append_assoc] at this
        exact this

theorem noProgress_ok (a : Assembler) (n : Nat) (h : a.errors = some n) (rs : List PRecord) :
    a.noProgress rs = ({ a with
      reported := a.reported ++ rs
      errors := some (n + rs.length)
      contextErrors := a.contextErrors + 1 }, .ok ()) := by
  induction rs generalizing a n with
  | nil =>
    rw [Assembler.noProgress]
    simp [h]
  | cons r rs ih =>
    rw [Assembler.noProgress, h]
    simp only
    rw [ih _ (n + 1) rfl]
    simp [Nat.add_comm, Nat.add_left_comm]

/-- The loop of passes, over records that are all present. -/
theorem passes_step (ctx : AsmContext) (qs : List PRecord) (m i prev : Nat) (a : Assembler)
    (hl : ctx.records.length = qs.length) (hr : a.records = some (qs.map some)) :
    Assembler.passes ctx (m + 1) i prev a =
      (if incomplete qs = [] then
        ({ a with passnum := some (i + 1), records := some (replaced ctx.currentRecord qs) }, .ok ())
      else if (incomplete qs).length = prev then
        Assembler.noProgress { a with
          passnum := some (i + 1)
          records := some (replaced ctx.currentRecord qs) } (incomplete qs)
      else Assembler.passes ctx m (i + 1) (incomplete qs).length { a with
          passnum := some (i + 1)
          records := some (replaced ctx.currentRecord qs) }) := by
  rw [Assembler.passes, hl]
  cases qs with
  | nil =>
    simp only [List.length_nil, incomplete, List.filter_nil, if_true, replaced, List.map_nil]
    rw [List.map_nil] at hr
    rw [← hr]
  | cons q qs =>
    rw [hr]
    have h := pass_present ctx.currentRecord [] (q :: qs) []
    simp only [List.length_nil, List.nil_append] at h
    simp only [List.length_cons] at h ⊢
    rw [h]
    simp only [List.length_eq_zero_iff]

/-- The loop of passes, over records one of which is None. -/
theorem passes_none (ctx : AsmContext) (os : List (Option PRecord)) (m i prev : Nat) (a : Assembler)
    (hl : ctx.records.length = os.length) (hr : a.records = some os) (hn : none ∈ os) :
    ∃ rs', Assembler.passes ctx (m + 1) i prev a =
      ({ a with passnum := some (i + 1), records := some rs' }, .error .attributeError) := by
  rw [Assembler.passes, hl]
  cases os with
  | nil => cases hn
  | cons q qs =>
    rw [hr]
    have h := pass_none ctx.currentRecord [] (q :: qs) hn []
    simp only [List.length_nil, List.nil_append, List.length_cons] at h
    simp only [List.length_cons]
    cases hp : Assembler.pass ctx.currentRecord 0 (qs.length + 1) (q :: qs) [] with
    | mk rs' x =>
      rw [hp] at h
      simp only at h
      subst h
      exact ⟨rs', rfl⟩

/-- What is left after the first pass. -/
theorem replaced_some (c : PRecord) (rs : List PRecord) :
    let qs := rs.map fun r => if r.parseable then c else r
    replaced (some c) rs = qs.map some ∧ replaced (some c) qs = qs.map some ∧
      (incomplete [c] = [] → incomplete qs = []) ∧
      (incomplete [c] = [c] → incomplete qs =
        List.replicate (rs.filter (·.parseable)).length c) := by
  intro qs
  refine ⟨?_, ?_, ?_, ?_⟩
  · simp only [qs, replaced, List.map_map]
    apply List.map_congr_left
    intro r _
    simp only [Function.comp]
    split <;> rfl
  · simp only [qs, replaced, List.map_map]
    apply List.map_congr_left
    intro r _
    simp only [Function.comp]
    split
    · split <;> rfl
    · rfl
  · intro h
    have hc : (c.parseable && !c.complete) = false := by
      cases hb : (c.parseable && !c.complete) with
      | false => rfl
      | true => simp [incomplete, hb] at h
    simp only [qs, incomplete]
    rw [List.filter_eq_nil_iff]
    intro r hr
    obtain ⟨x, -, rfl⟩ := List.mem_map.1 hr
    by_cases hx : x.parseable = true
    · rw [if_pos hx, hc]; decide
    · rw [if_neg hx]; simp [hx]
  · intro h
    have hc : (c.parseable && !c.complete) = true := by
      cases hb : (c.parseable && !c.complete) with
      | true => rfl
      | false => simp [incomplete, hb] at h
    simp only [qs, incomplete]
    clear qs h
    induction rs with
    | nil => rfl
    | cons r rs ih =>
      by_cases hx : r.parseable = true
      · rw [List.map_cons, if_pos hx, List.filter_cons, if_pos hc, ih, List.filter_cons, if_pos hx]
        rfl
      · rw [List.map_cons, if_neg hx, List.filter_cons, if_neg (by simp [hx]), ih,
          List.filter_cons, if_neg hx]

/-- C114, the property as stated: resolving the records of an assembler set up with a context and its
records reports exactly the incomplete ones and keeps all records. -/
def C114_statement : Prop :=
  ∀ (a : Assembler) (ctx : AsmContext) (rs : List PRecord) (n maxPasses : Nat),
    a.context = some ctx → ctx.records = rs.map some → a.records = some (rs.map some) →
    a.errors = some n → 3 ≤ maxPasses →
    (a.resolve maxPasses).2 = .ok () ∧
    (a.resolve maxPasses).1.records = a.records ∧
    (a.resolve maxPasses).1.reported = a.reported ++ incomplete rs

/-- C114, what holds: the outcome for every set of records. The parseable records are overwritten by
the context's current record after the first look at them; incomplete ones are then either not
reported at all, or an AttributeError ends the resolution, or the current record is reported once for
every parseable record. There are at most three passes. -/
theorem C114_outcome_partial (a : Assembler) (ctx : AsmContext) (rs : List PRecord)
    (n maxPasses : Nat) (hc : a.context = some ctx) (hrec : ctx.records = rs.map some)
    (hr : a.records = some (rs.map some)) (he : a.errors = some n) (hm : 3 ≤ maxPasses) :
    let a' := (a.resolve maxPasses).1
    (∃ p, a'.passnum = some p ∧ 1 ≤ p ∧ p ≤ 3) ∧
    (incomplete rs = [] → (a.resolve maxPasses).2 = .ok () ∧ a'.passnum = some 1 ∧
      a'.reported = a.reported ∧ a'.errors = some n ∧
      a'.records = some (replaced ctx.currentRecord rs)) ∧
    (incomplete rs ≠ [] → ctx.currentRecord = none →
      (a.resolve maxPasses).2 = .error .attributeError ∧ a'.reported = a.reported ∧
      a'.errors = some n) ∧
    (∀ c, incomplete rs ≠ [] → ctx.currentRecord = some c → incomplete [c] = [] →
      (a.resolve maxPasses).2 = .ok () ∧ a'.reported = a.reported ∧ a'.errors = some n ∧
      a'.records = some (replaced (some c) rs)) ∧
    (∀ c, incomplete rs ≠ [] → ctx.currentRecord = some c → incomplete [c] = [c] →
      (a.resolve maxPasses).2 = .ok () ∧
      a'.reported = a.reported ++ List.replicate (rs.filter (·.parseable)).length c ∧
      a'.errors = some (n + (rs.filter (·.parseable)).length) ∧
      a'.records = some (replaced (some c) rs)) := by
  intro a'
  obtain ⟨m, rfl⟩ : ∃ m, maxPasses = m + 3 := ⟨maxPasses - 3, by omega⟩
  have hl : ctx.records.length = rs.length := by rw [hrec, List.length_map]
  have h1 : a.resolve (m + 3) = Assembler.passes ctx (m + 3) 0 0 a := by
    unfold Assembler.resolve; rw [hc]
  have s1 := passes_step ctx rs (m + 2) 0 0 a hl hr
  by_cases hu : incomplete rs = []
  · rw [if_pos hu] at s1
    have e : a.resolve (m + 3) = _ := h1.trans s1
    refine ⟨⟨1, ?_, by decide, by decide⟩, fun _ => ?_, fun h => absurd hu h,
      fun _ h => absurd hu h, fun _ h => absurd hu h⟩
    · simp only [a', e]
    · simp only [a', e]
      simp [he]
  · have hpos : (incomplete rs).length ≠ 0 := fun h => hu (List.length_eq_zero_iff.1 h)
    rw [if_neg hu, if_neg hpos] at s1
    cases hcur : ctx.currentRecord with
    | none =>
      rw [hcur] at s1
      have hmem : none ∈ replaced none rs := by
        obtain ⟨r, hr'⟩ := List.exists_mem_of_ne_nil _ hu
        have hp := List.of_mem_filter hr'
        simp only [Bool.and_eq_true] at hp
        exact List.mem_map.2 ⟨r, List.mem_of_mem_filter hr', by rw [if_pos hp.1]⟩
      obtain ⟨rs', s2⟩ := passes_none ctx (replaced none rs) (m + 1) 1 (incomplete rs).length
        { a with passnum := some 1, records := some (replaced none rs) }
        (by rw [hl]; simp [replaced]) rfl hmem
      have e : a.resolve (m + 3) = _ := h1.trans (s1.trans s2)
      refine ⟨⟨2, ?_, by decide, by decide⟩, fun h => absurd h hu, fun _ _ => ?_,
        fun _ _ h => ?_, fun _ _ h => ?_⟩
      · simp only [a', e]
      · simp only [a', e]
        simp [he]
      · cases h
      · cases h
    | some c =>
      rw [hcur] at s1
      obtain ⟨q1, q2, q3, q4⟩ := replaced_some c rs
      set qs := rs.map (fun r => if r.parseable then c else r) with hqs
      have hlq : ctx.records.length = qs.length := by rw [hl, hqs, List.length_map]
      have s2 := passes_step ctx qs (m + 1) 1 (incomplete rs).length
        { a with passnum := some 1, records := some (replaced (some c) rs) } hlq (by rw [q1])
      rw [hcur] at s2
      by_cases hc1 : (c.parseable && !c.complete) = true
      · have i1 : incomplete [c] = [c] := by simp [incomplete, hc1]
        have hp0 : (incomplete qs).length = (rs.filter (·.parseable)).length := by
          rw [q4 i1, List.length_replicate]
        have hne : incomplete qs ≠ [] := by
          intro e0
          rw [e0] at hp0
          obtain ⟨r, hr'⟩ := List.exists_mem_of_ne_nil _ hu
          have hp := List.of_mem_filter hr'
          simp only [Bool.and_eq_true] at hp
          have hmem : r ∈ rs.filter (·.parseable) :=
            List.mem_filter.2 ⟨List.mem_of_mem_filter hr', hp.1⟩
          have := List.length_pos_of_mem hmem
          rw [← hp0] at this
          exact absurd this (by decide)
        rw [if_neg hne] at s2
        have fin : ∃ p, p ≤ 3 ∧ 1 ≤ p ∧ a.resolve (m + 3) = ({ a with
            passnum := some p
            records := some (replaced (some c) rs)
            reported := a.reported ++ List.replicate (rs.filter (·.parseable)).length c
            errors := some (n + (rs.filter (·.parseable)).length)
            contextErrors := a.contextErrors + 1 }, .ok ()) := by
          by_cases hlen : (incomplete qs).length = (incomplete rs).length
          · rw [if_pos hlen] at s2
            refine ⟨2, by decide, by decide, h1.trans (s1.trans (s2.trans ?_))⟩
            refine (noProgress_ok _ n ?_ _).trans ?_
            · exact he
            rw [q4 i1, List.length_replicate, q2, ← q1]
          · rw [if_neg hlen] at s2
            have s3 := passes_step ctx qs m 2 (incomplete qs).length
              { a with passnum := some 2, records := some (replaced (some c) qs) } hlq
              (by rw [q2])
            rw [if_neg hne, if_pos rfl, hcur] at s3
            refine ⟨3, by decide, by decide, h1.trans (s1.trans (s2.trans (s3.trans ?_)))⟩
            refine (noProgress_ok _ n ?_ _).trans ?_
            · exact he
            rw [q4 i1, List.length_replicate, q2, ← q1]
        obtain ⟨p, f1, f2, e⟩ := fin
        refine ⟨⟨p, ?_, f2, f1⟩, fun h => absurd h hu, fun _ h => ?_, fun x _ h h' => ?_,
          fun x _ h _ => ?_⟩
        · simp only [a', e]
        · cases h
        · cases h
          rw [i1] at h'
          cases h'
        · cases h
          simp only [a', e]
          simp
      · have i0 : incomplete [c] = [] := by simp [incomplete, hc1]
        rw [if_pos (q3 i0)] at s2
        have e : a.resolve (m + 3) = _ := h1.trans (s1.trans s2)
        refine ⟨⟨2, ?_, by decide, by decide⟩, fun h => absurd h hu, fun _ h => ?_,
          fun x _ h _ => ?_, fun x _ h h' => ?_⟩
        · simp only [a', e]
        · cases h
        · cases h
          simp only [a', e]
          simp [he, q2, q1]
        · cases h
          rw [i0] at h'
          cases h'

/-- An assembler with one complete and one incomplete record. -/
def twoRecords (cur : Option PRecord) : Assembler :=
  { Assembler.init with
    context := some ⟨[some ⟨1, true, true⟩, some ⟨2, true, false⟩], cur⟩
    records := some [some ⟨1, true, true⟩, some ⟨2, true, false⟩]
    errors := some 0 }

/-- C114_outcome on that assembler, for the three kinds of current record. -/
example : (twoRecords none).resolve 10 =
      ({ twoRecords none with
          records := some [none, none]
          passnum := some 2 }, .error .attributeError) ∧
    ((twoRecords (some ⟨3, true, true⟩)).resolve 10).1.reported = [] ∧
    ((twoRecords (some ⟨3, true, false⟩)).resolve 10).1.reported =
      [⟨3, true, false⟩, ⟨3, true, false⟩] ∧
    ((twoRecords (some ⟨3, true, false⟩)).resolve 10).1.passnum = some 3 :=
  ⟨rfl, rfl, rfl, rfl⟩

/-- C114 fails: an incomplete record is not reported. -/
theorem C114_refuted : ¬ C114_statement := by
  intro h
  have := (h (twoRecords (some ⟨3, true, true⟩)) _ [⟨1, true, true⟩, ⟨2, true, false⟩] 0 10 rfl rfl
    rfl rfl (by decide)).2.2
  exact absurd this (by decide)

/-- C114: an assembler nobody gives a context, however it is used, resolves nothing: AttributeError. -/
theorem C114_no_context_partial (upper : Str → Str) (fs : FileSystem) (fuel : Nat) (ops : List AsmOp)
    (maxPasses : Nat) :
    let a := ops.foldl (AsmOp.run upper fs fuel) Assembler.init
    a.resolve maxPasses = (a, .error .attributeError) := by
  have key : ∀ (ops : List AsmOp) (a : Assembler), a.context = none →
      (ops.foldl (AsmOp.run upper fs fuel) a).context = none := by
    intro ops
    induction ops with
    | nil => exact fun _ h => h
    | cons op ops ih =>
      intro a h
      apply ih
      cases op with
      | symbols f =>
        unfold AsmOp.run Assembler.createSymbolTable
        simp only
        split <;> exact h
      | assemble f =>
        unfold AsmOp.run Assembler.assemble
        simp only
        split <;> exact h
      | resolve n =>
        unfold AsmOp.run Assembler.resolve
        simp only [h]
  intro a
  have h : a.context = none := key ops _ rfl
  unfold Assembler.resolve
  rw [h]

/-- C115: loading a record and saving it again gives back the record, whatever it is saved over; and
a context that has saved its state into a record is restored by loading it. -/
theorem C115_load_save (c : Context) (r r' : CtxRecord) :
    (c.load r).save r' = (r, .ok ()) ∧
    ∀ x, c.save r = (x, .ok ()) → c.load x = c := by
  refine ⟨rfl, ?_⟩
  intro x h
  unfold Context.save at h
  cases hc : c.coloc with
  | none => rw [hc] at h; simp at h
  | some v =>
    rw [hc] at h
    simp only [Prod.mk.injEq, and_true] at h
    subst h
    unfold Context.load
    simp only [← hc]

/-- A context in the middle of a source file, at location 7 of bank 2. -/
def someContext : Context :=
  { linenum := 5, globalLinenum := 9, code := [1], srcline := some (py "X"), currentRecord := none,
    previousRecord := none, addSymbol := true, reparse := false, passnum := 1, loc := 7, bank := 2,
    coloc := some 3, errorMsg := none, warningMsg := some (py "W"), errors := 0, warnings := 1 }

/-- C115 on that context: saved over a blank record, reset, and restored up to the record and pass
attributes. -/
example : let blank : CtxRecord := ⟨0, 0, [], none, 0, 0, 0, none, none⟩
    (someContext.save blank).2 = .ok () ∧
    (someContext.save blank).1 = ⟨5, 9, [1], some (py "X"), 7, 2, 3, none, some (py "W")⟩ ∧
    someContext.reset.loc = 0 ∧ someContext.reset.load (someContext.save blank).1 = someContext := by
  decide

/-- C116, the property as stated: a new context is at location 0, and setting the location of a context
outside a second pass moves it there if the address is valid, the same for the other location; and the
context can be printed. -/
def C116_statement : Prop :=
  (∃ c, Context.init = .ok c ∧ c.loc = 0) ∧
  ∀ (c : Context) (isValid : Int → Bool) (address : Int), c.reparse = false →
    isValid address = true → ((c.setLoc (some isValid) address).1).loc = address ∧
      ((c.setCoLoc (some isValid) address).1).coloc = some address ∧ ∃ text, c.str = .ok text

/-- C116 fails in all parts: the constructor raises NameError, the context above stays at location 7
when told to go to 8, and cannot be printed. -/
theorem C116_refuted : ¬ C116_statement ∧
    (∀ c, Context.init ≠ .ok c) ∧
    (someContext.setLoc (some fun _ => true) 8).1.loc = 7 ∧
    (someContext.setCoLoc (some fun _ => true) 8).1.coloc = some 3 ∧
    someContext.str = .error .nameError := by
  have h0 : Context.init = .error .nameError := by decide
  have h1 : ∀ c, Context.init ≠ .ok c := by
    intro c h; rw [h0] at h; cases h
  refine ⟨?_, h1, by decide, by decide, by decide⟩
  rintro ⟨⟨c, h, -⟩, -⟩
  exact h1 c h

/-- C116, what holds: there is no context to set a location of, and none that can be printed; and setting
a location never changes anything: without a memory map, for an invalid address, and outside a second pass it raises
AttributeError. A context that never loaded a record cannot be saved: the record is left with some
attributes written and others not. -/
theorem C116_never_moves_partial (c : Context) (memmap : Option (Int → Bool)) (address : Int)
    (r : CtxRecord) :
    Context.init = .error .nameError ∧ c.str = .error .nameError ∧
    c.setCoLoc memmap address = c.setLoc memmap address ∧ (c.setLoc memmap address).1 = c ∧
    ((c.setLoc memmap address).2 = .ok () ↔
      c.reparse = true ∧ ∃ isValid, memmap = some isValid ∧ isValid address = true) ∧
    (c.coloc = none → (c.save r).2 = .error .attributeError ∧ (c.save r).1.loc = c.loc ∧
      (c.save r).1.bank = r.bank) := by
  refine ⟨by decide, by unfold Context.str; rw [if_neg (by decide)], rfl, ?_, ?_, ?_⟩
  · unfold Context.setLoc
    cases memmap with
    | none => rfl
    | some v => simp only; split <;> [rfl; (split <;> rfl)]
  · unfold Context.setLoc
    cases memmap with
    | none => simp
    | some v =>
      simp only
      by_cases h1 : v address = true <;> by_cases h2 : c.reparse = true <;> simp [h1, h2]
  · intro h
    unfold Context.save
    rw [h]
    exact ⟨rfl, rfl, rfl⟩

end H800
