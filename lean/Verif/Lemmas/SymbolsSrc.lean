import Verif.Lemmas.Symbols

/-! Lemmas relating `buildSymbolTable` to the source lines. -/

namespace H800

open Spec

/-! ### The cards of a file -/

theorem findLog_ok {out : List Src} (hne : ∀ s ∈ out, s.text.head? ≠ some '#')
    {cards : List PunchCard}
    (hm : out.mapM (mkCard argusClass DEFAULT_WIDTH DEFAULT_FIELDS) = .ok cards) :
    (∃ l, ArgusDeck.findLog cards = .ok l) ∧ cards.mapM codeCard = .ok (out.map srcCard) := by
  induction out generalizing cards with
  | nil => rw [mapM_nil_ok.1 hm]; exact ⟨⟨_, rfl⟩, rfl⟩
  | cons s out ih =>
    obtain ⟨c, cs, hc, hcs, rfl⟩ := mapM_cons_ok.1 hm
    obtain ⟨⟨l, hl⟩, h2⟩ := ih (fun x hx => hne x (List.mem_cons_of_mem _ hx)) hcs
    have hs := hne s List.mem_cons_self
    refine ⟨?_, mapM_cons_ok.2 ⟨_, _, codeCard_src s hs c hc, h2, rfl⟩⟩
    unfold mkCard at hc
    rw [argus_eq s.text hs] at hc
    cases hc
    obtain ⟨h1, -, h3, -⟩ := argus_items s.text s.num
    rw [ArgusDeck.findLog]
    unfold PunchCard.item PunchCard.record PunchCard.getBody
    simp only [py_bind_ok, py_pure, h1, h3]
    split
    · exact ⟨_, rfl⟩
    · exact ⟨l, hl⟩

theorem expands_ne {fs : FileSystem} {file : Str} {out : List Src} (h : Expands fs file out) :
    ∀ s ∈ out, s.text.head? ≠ some '#' := by
  intro s hs
  obtain ⟨-, -, -, -, hh, -⟩ := expands_src h s hs
  exact hh

theorem deckCards_of_read {fs : FileSystem} {fuel : Nat} {c : Char} {file : Str} {out : List Src}
    {cards : List PunchCard} (h : Expands fs (c :: file) out)
    (hm : out.mapM (mkCard argusClass DEFAULT_WIDTH DEFAULT_FIELDS) = .ok cards)
    (hr : Deck.readSource fs argusClass DEFAULT_WIDTH DEFAULT_FIELDS fuel true (c :: file) =
      .ok cards) :
    deckCards fs fuel (c :: file) = .ok (out.map srcCard) := by
  obtain ⟨⟨l, hl⟩, h2⟩ := findLog_ok (expands_ne h) hm
  have hb : ∀ x ∈ cards, ∃ b, x.body = some b := by
    intro x hx
    obtain ⟨s, hs, e⟩ := mapM_ok_mem hm hx
    exact (card_keeps (Or.inl rfl) (expands_ne h s hs) e).2.2.2
  obtain ⟨bs, -, hcol⟩ := collect_ok (lines := cards.map (·.line)) hb
  unfold deckCards ArgusDeck.init Deck.init
  simp only [hr, hcol, hl, py_bind_ok, py_pure]
  exact h2

theorem deckCards_ok {fs : FileSystem} {fuel : Nat} {file : Str} {cs : List CodeCard}
    (h : deckCards fs fuel file = .ok cs) :
    file ≠ [] ∧ ∃ out, Expands fs file out ∧ cs = out.map srcCard := by
  cases file with
  | nil => cases h
  | cons c file =>
    refine ⟨by simp, ?_⟩
    cases hr : Deck.readSource fs argusClass DEFAULT_WIDTH DEFAULT_FIELDS fuel true (c :: file) with
    | error e =>
      unfold deckCards ArgusDeck.init Deck.init at h
      simp only [hr, py_bind_error] at h
      cases h
    | ok cards =>
      obtain ⟨out, h1, h2⟩ := readSource_sound hr
      refine ⟨out, h1, ?_⟩
      rw [deckCards_of_read h1 h2 hr] at h
      cases h; rfl

theorem deckCards_complete {fs : FileSystem} {file : Str} (hf : file ≠ []) {out : List Src}
    (h : Expands fs file out) :
    ∃ n, ∀ m, n ≤ m → deckCards fs m file = .ok (out.map srcCard) := by
  obtain ⟨cards, hm⟩ := srcs_total total_argus (expands_ne h)
  obtain ⟨n, hn⟩ := readSource_complete h hm
  obtain ⟨c, file, rfl⟩ := List.exists_cons_of_ne_nil hf
  exact ⟨n, fun m hnm => deckCards_of_read h hm (hn m hnm)⟩

theorem build_ok {upper : Str → Str} {fs : FileSystem} {fuel : Nat} {file : Str} {t : Symtab}
    {b : BuildState} (h : buildSymbolTable upper fs fuel file t = .ok b) :
    file ≠ [] ∧ ∃ out, Expands fs file out ∧
      buildCards upper (splitFirst file '.') ⟨t, py "1", 0, []⟩ (out.map srcCard) = .ok b := by
  unfold buildSymbolTable at h
  cases hd : deckCards fs fuel file with
  | error e => rw [hd] at h; cases h
  | ok cs =>
    obtain ⟨h1, out, h2, rfl⟩ := deckCards_ok hd
    rw [hd] at h
    exact ⟨h1, out, h2, h⟩

theorem build_complete {upper : Str → Str} {fs : FileSystem} {file : Str} {t : Symtab}
    (hf : file ≠ []) {out : List Src} (h : Expands fs file out) :
    ∃ n, ∀ m, n ≤ m → buildSymbolTable upper fs m file t =
      buildCards upper (splitFirst file '.') ⟨t, py "1", 0, []⟩ (out.map srcCard) := by
  obtain ⟨n, hn⟩ := deckCards_complete hf h
  refine ⟨n, fun m hm => ?_⟩
  unfold buildSymbolTable
  rw [hn m hm]
  rfl

/-! ### Subsegments -/

theorem sets_iff (s : Src) (sub : Str) : Sets s sub ↔ (srcCard s).column8 ≠ some (py "*") ∧
    ∃ o, (srcCard s).operation = some o ∧ hasPrefix (py "SETLOC") o = true ∧ setlocName o = sub := by
  unfold Sets
  rw [← starred_iff]
  refine and_congr Iff.rfl (exists_congr fun o => ?_)
  rw [op_iff, setloc_iff]

theorem step_sets {s : Src} {sub : Str} (h : Sets s sub) (x : Str) : stepSub x (srcCard s) = sub := by
  obtain ⟨h8, o, ho, hp, hs⟩ := (sets_iff s sub).1 h
  unfold stepSub
  rw [if_neg h8, ho]
  simp only [nextSubseg]
  rw [if_pos hp, hs]

theorem step_keeps {s : Src} (h : ∀ sub, ¬ Sets s sub) (x : Str) : stepSub x (srcCard s) = x := by
  unfold stepSub
  by_cases h8 : (srcCard s).column8 = some (py "*")
  · rw [if_pos h8]
  · rw [if_neg h8]
    cases ho : (srcCard s).operation with
    | none => rfl
    | some o =>
      simp only [nextSubseg]
      rw [if_neg]
      intro hp
      exact h _ ((sets_iff s _).2 ⟨h8, o, ho, hp, rfl⟩)

/-- The subsegment after line `i`, starting from `x`. -/
def subAt (x : Str) : List Src → Nat → Str
  | [], _ => x
  | s :: _, 0 => stepSub x (srcCard s)
  | s :: out, i + 1 => subAt (stepSub x (srcCard s)) out i

/-- `Current` with the initial subsegment `x`. -/
def CurrentFrom (x : Str) (out : List Src) (i : Nat) (sub : Str) : Prop :=
  (∃ j s, j ≤ i ∧ out[j]? = some s ∧ Sets s sub ∧
    ∀ k s', j < k → k ≤ i → out[k]? = some s' → ∀ sub', ¬ Sets s' sub') ∨
  (sub = x ∧ ∀ k s', k ≤ i → out[k]? = some s' → ∀ sub', ¬ Sets s' sub')

theorem currentFrom_subAt (x : Str) (out : List Src) (i : Nat) : CurrentFrom x out i (subAt x out i) := by
  induction out generalizing x i with
  | nil => exact Or.inr ⟨rfl, fun k s' _ h => by simp at h⟩
  | cons s out ih =>
    by_cases hs : ∃ sub, Sets s sub
    · obtain ⟨sub, hs⟩ := hs
      cases i with
      | zero =>
        refine Or.inl ⟨0, s, le_refl _, rfl, ?_, fun k s' h1 h2 => by omega⟩
        rw [subAt, step_sets hs]; exact hs
      | succ i =>
        rw [subAt]
        rcases ih (stepSub x (srcCard s)) i with ⟨j, s1, hj, h1, h2, h3⟩ | ⟨h1, h2⟩
        · refine Or.inl ⟨j + 1, s1, by omega, by simpa using h1, h2, ?_⟩
          intro k s' hk1 hk2 hk
          obtain ⟨k, rfl⟩ : ∃ k', k = k' + 1 := ⟨k - 1, by omega⟩
          exact h3 k s' (by omega) (by omega) (by simpa using hk)
        · refine Or.inl ⟨0, s, by omega, rfl, ?_, ?_⟩
          · rw [h1, step_sets hs]; exact hs
          · intro k s' hk1 hk2 hk
            obtain ⟨k, rfl⟩ : ∃ k', k = k' + 1 := ⟨k - 1, by omega⟩
            exact h2 k s' (by omega) (by simpa using hk)
    · have hs' : ∀ sub, ¬ Sets s sub := fun sub h => hs ⟨sub, h⟩
      cases i with
      | zero =>
        refine Or.inr ⟨?_, ?_⟩
        · rw [subAt, step_keeps hs']
        · intro k s' hk h
          obtain rfl : k = 0 := by omega
          simp at h; subst h; exact hs'
      | succ i =>
        rw [subAt, step_keeps hs']
        rcases ih x i with ⟨j, s1, hj, h1, h2, h3⟩ | ⟨h1, h2⟩
        · refine Or.inl ⟨j + 1, s1, by omega, by simpa using h1, h2, ?_⟩
          intro k s' hk1 hk2 hk
          obtain ⟨k, rfl⟩ : ∃ k', k = k' + 1 := ⟨k - 1, by omega⟩
          exact h3 k s' (by omega) (by omega) (by simpa using hk)
        · refine Or.inr ⟨h1, ?_⟩
          intro k s' hk2 hk
          cases k with
          | zero => simp at hk; subst hk; exact hs'
          | succ k => exact h2 k s' (by omega) (by simpa using hk)

theorem sets_unique {s : Src} {a b : Str} (ha : Sets s a) (hb : Sets s b) : a = b := by
  rw [← step_sets ha [], step_sets hb]

theorem currentFrom_unique {x : Str} {out : List Src} {i : Nat} {a b : Str}
    (ha : CurrentFrom x out i a) (hb : CurrentFrom x out i b) : a = b := by
  rcases ha with ⟨j, s, hj, h1, h2, h3⟩ | ⟨h1, h2⟩
  · rcases hb with ⟨k, s', hk, g1, g2, g3⟩ | ⟨g1, g2⟩
    · rcases lt_trichotomy j k with hjk | rfl | hkj
      · exact absurd g2 (h3 k s' hjk hk g1 b)
      · rw [h1] at g1; cases g1; exact sets_unique h2 g2
      · exact absurd h2 (g3 j s hkj hj h1 a)
    · exact absurd h2 (g2 j s hj h1 a)
  · rcases hb with ⟨k, s', hk, g1, g2, g3⟩ | ⟨g1, g2⟩
    · exact absurd g2 (h2 k s' hk g1 b)
    · rw [h1, g1]

theorem current_iff (out : List Src) (i : Nat) (sub : Str) :
    Current out i sub ↔ subAt (py "1") out i = sub := by
  constructor
  · intro h; exact currentFrom_unique (currentFrom_subAt _ out i) h
  · rintro rfl; exact currentFrom_subAt _ out i

/-! ### Definitions -/

theorem hasLabel_strip {s : Src} {l : Str} (h : HasLabel s l) : strip l = l ∧ l ≠ [] := by
  obtain ⟨-, h1, h2⟩ := h
  refine ⟨?_, h1⟩
  rw [← stripped_iff.1 h2, strip_strip]

theorem action_def (upper : Str → Str) (s : Src) (tag tt o : Str) :
    actionOf upper (srcCard s) = .def_ tag tt o ↔
      ¬ Starred s ∧ (∃ l, HasLabel s l ∧ GoodLabel upper l tag tt) ∧ HasOp s o := by
  unfold actionOf
  rw [← starred_iff, ← op_iff]
  by_cases h8 : (srcCard s).column8 = some (py "*")
  · simp [h8]
  · simp only [h8, not_false_eq_true, true_and]
    cases hl : (srcCard s).label with
    | none =>
      simp only [← label_iff, hl]
      simp
    | some l =>
      have hL := (label_iff s l).1 hl
      obtain ⟨hst, hne⟩ := hasLabel_strip hL
      have he : (∃ l', HasLabel s l' ∧ GoodLabel upper l' tag tt) ↔ GoodLabel upper l tag tt := by
        constructor
        · rintro ⟨l', h1, h2⟩
          rw [← label_iff, hl] at h1; cases h1; exact h2
        · exact fun h => ⟨l, hL, h⟩
      rw [he, ← goodLabel_iff upper hst]
      cases l with
      | nil => exact absurd rfl hne
      | cons x xs =>
        simp only
        cases hk : checkLabel upper (cleanLabel (x :: xs)) with
        | error e => simp
        | ok p =>
          obtain ⟨tag', tt'⟩ := p
          simp only
          cases ho : (srcCard s).operation with
          | none => simp
          | some o' => simp [and_assoc]

theorem action_err (upper : Str → Str) (s : Src) :
    (∃ e l tt, actionOf upper (srcCard s) = .err e l tt) ↔ InError upper s := by
  unfold actionOf InError
  rw [← starred_iff]
  by_cases h8 : (srcCard s).column8 = some (py "*")
  · simp [h8]
  · simp only [h8, not_false_eq_true, true_and]
    cases hl : (srcCard s).label with
    | none => simp only [← label_iff, hl]; simp
    | some l =>
      have hL := (label_iff s l).1 hl
      obtain ⟨hst, hne⟩ := hasLabel_strip hL
      have he : (∃ l', HasLabel s l' ∧ (BadLabel upper l' ∨ ∀ o, ¬ HasOp s o)) ↔
          (BadLabel upper l ∨ ∀ o, ¬ HasOp s o) := by
        constructor
        · rintro ⟨l', h1, h2⟩
          rw [← label_iff, hl] at h1; cases h1; exact h2
        · exact fun h => ⟨l, hL, h⟩
      rw [he, badLabel_iff]
      simp only [← goodLabel_iff upper hst, ← op_iff]
      cases l with
      | nil => exact absurd rfl hne
      | cons x xs =>
        simp only
        cases hk : checkLabel upper (cleanLabel (x :: xs)) with
        | error e => simp
        | ok p =>
          obtain ⟨tag', tt'⟩ := p
          simp only
          cases ho : (srcCard s).operation with
          | none => simp
          | some o' => simp

theorem defAt_from (upper : Str → Str) (x : Str) (out : List Src) (i : Nat) (tag sub kind : Str)
    (e : SymEntry) :
    defAt upper x (out.map srcCard) i = some (tag, sub, kind, e) ↔
      ∃ s tt o, out[i]? = some s ∧ actionOf upper (srcCard s) = .def_ tag tt o ∧
        kind = symtypeOf o ∧ e = entryOf (srcCard s) tt ∧ sub = subAt x out i := by
  induction out generalizing x i with
  | nil => simp [defAt]
  | cons s out ih =>
    cases i with
    | zero =>
      rw [List.map_cons, defAt]
      simp only [List.getElem?_cons_zero, Option.some.injEq, subAt]
      cases ha : actionOf upper (srcCard s) with
      | skip =>
        simp only [reduceCtorEq, false_iff]
        rintro ⟨s', tt, o, rfl, h, -⟩
        rw [ha] at h; cases h
      | err e l tt =>
        simp only [reduceCtorEq, false_iff]
        rintro ⟨s', tt, o, rfl, h, -⟩
        rw [ha] at h; cases h
      | def_ tag' tt' o' =>
        simp only [Option.some.injEq, Prod.mk.injEq]
        constructor
        · rintro ⟨rfl, rfl, rfl, rfl⟩
          exact ⟨s, tt', o', rfl, ha, rfl, rfl, rfl⟩
        · rintro ⟨s', tt, o, rfl, h, rfl, rfl, rfl⟩
          rw [ha] at h
          cases h
          exact ⟨rfl, rfl, rfl, rfl⟩
    | succ i =>
      rw [List.map_cons, defAt, ih, List.getElem?_cons_succ]
      rfl

theorem kindOf_eq (o : Str) : kindOf o = symtypeOf o := rfl

theorem defAt_iff (upper : Str → Str) (out : List Src) (i : Nat) (tag sub kind : Str)
    (e : SymEntry) :
    defAt upper (py "1") (out.map srcCard) i = some (tag, sub, kind, e) ↔
      ∃ s tt, DefinesAt upper out i s tag tt sub kind ∧ e = entryOf (srcCard s) tt := by
  rw [defAt_from]
  unfold DefinesAt
  constructor
  · rintro ⟨s, tt, o, h1, h2, h3, h4, h5⟩
    obtain ⟨k1, k2, k3⟩ := (action_def upper s tag tt o).1 h2
    exact ⟨s, tt, ⟨h1, k1, k2, ⟨o, k3, h3⟩, (current_iff _ _ _).2 h5.symm⟩, h4⟩
  · rintro ⟨s, tt, ⟨h1, k1, k2, ⟨o, k3, h3⟩, h5⟩, h4⟩
    exact ⟨s, tt, o, h1, (action_def upper s tag tt o).2 ⟨k1, k2, k3⟩, h3, h4,
      ((current_iff _ _ _).1 h5).symm⟩

theorem entry_describes (s : Src) (tt : Str) : Describes s tt (entryOf (srcCard s) tt) := by
  refine ⟨rfl, rfl, isEntry_entry _, rfl, ?_⟩
  rfl

/-- The last of the indices below `n` with a property. -/
theorem last_index {P : Nat → Prop} {n i : Nat} (hi : P i) (hn : ∀ j, P j → j < n) :
    ∃ k, P k ∧ ∀ j, k < j → ¬ P j := by
  classical
  have key : ∀ m, (∃ i, P i ∧ n - i ≤ m) → ∃ k, P k ∧ ∀ j, k < j → ¬ P j := by
    intro m
    induction m with
    | zero => rintro ⟨i, h1, h2⟩; have := hn i h1; omega
    | succ m ih =>
      rintro ⟨i, h1, h2⟩
      by_cases h : ∃ j, i < j ∧ P j
      · obtain ⟨j, hj, hp⟩ := h
        have := hn j hp
        exact ih ⟨j, hp, by omega⟩
      · exact ⟨i, h1, fun j hj hp => h ⟨j, hj, hp⟩⟩
  exact key n ⟨i, hi, by omega⟩

end H800
