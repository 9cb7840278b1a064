import Verif.Model.Status
import Verif.Spec.Status
import Verif.Props.Options
import Verif.Lemmas.SymTools

/-!
Lemmas for the exit statuses.
-/

namespace H800
open Spec

theorem process_help {o : Opt} {v : Dict Str Bool} {e : OptExit} :
    o.process v = .error e ↔ o.dest = none ∧ e = .help := by
  unfold Opt.process
  cases o.dest with
  | none => simp [eq_comm]
  | some d => simp

theorem shortHelp_iff {opts : List Opt} (hg : GoodOpts opts) (cs : Str) (v : Dict Str Bool) :
    processShort opts cs v = .error .help ↔
      ∃ pre c post os o, cs = pre ++ c :: post ∧ Letters opts pre os ∧ o ∈ opts ∧
        o.short = ['-', c] ∧ o.dest = none := by
  induction cs generalizing v with
  | nil =>
    rw [processShort]
    constructor
    · intro h; cases h
    · rintro ⟨pre, c, post, os, o, h, -⟩; cases pre <;> cases h
  | cons c cs ih =>
    rw [processShort]
    cases hf : opts.find? (fun o => decide (o.short = ['-', c])) with
    | none =>
      have hno := List.find?_eq_none.1 hf
      constructor
      · intro h; cases h
      · rintro ⟨pre, d, post, os, o, h, h1, h2, h3, -⟩
        cases pre with
        | nil => cases h; exact absurd h3 (by simpa using hno _ h2)
        | cons x pre =>
          cases h
          cases h1 with
          | cons h1 _ => exact absurd h1.2 (by simpa using hno _ h1.1)
    | some o =>
      have ho := (find_opt hg.1 _ _).1 hf
      simp only
      cases hp : o.process v with
      | error e =>
        obtain ⟨h1, rfl⟩ := process_help.1 hp
        exact ⟨fun _ => ⟨[], c, cs, [], o, rfl, .nil, ho.1, ho.2, h1⟩, fun _ => rfl⟩
      | ok w =>
        simp only
        rw [ih]
        constructor
        · rintro ⟨pre, d, post, os, p, rfl, h1, h2⟩
          exact ⟨c :: pre, d, post, o :: os, p, rfl, .cons ho h1, h2⟩
        · rintro ⟨pre, d, post, os, p, h, h1, h2, h3, h4⟩
          cases pre with
          | nil =>
            cases h
            have : p = o := nodup_map_inj hg.1 h2 ho.1 (h3.trans ho.2.symm)
            subst this
            exact absurd h4 ((process_ok p v w).1 hp).1
          | cons x pre =>
            cases h
            cases h1 with
            | cons _ h1 => exact ⟨pre, d, post, _, p, rfl, h1, h2, h3, h4⟩

theorem longHelp_iff {opts : List Opt} (hg : GoodOpts opts) (n : Str) (v : Dict Str Bool) :
    processLong opts n v = .error .help ↔ ∃ o, Names opts n o ∧ o.dest = none := by
  constructor
  · intro h
    unfold processLong at h
    simp only at h
    by_cases hc : n.contains '=' = true
    · rw [if_pos hc] at h
      have hm : ∀ s w, matchAbbrev s w ≠ .error .help := by
        intro s w h
        unfold matchAbbrev at h
        split at h
        · cases h
        · split at h <;> cases h
      cases hma : matchAbbrev (splitFirst n '=') (opts.map (·.long)) with
      | error e => rw [hma] at h; cases h; exact absurd hma (hm _ _)
      | ok w =>
        rw [hma] at h
        simp only at h
        split at h
        · cases h
        · rw [if_pos hc] at h; cases h
    · rw [if_neg hc] at h
      cases hma : matchAbbrev n (opts.map (·.long)) with
      | error e =>
        rw [hma] at h
        cases h
        unfold matchAbbrev at hma
        split at hma
        · cases hma
        · split at hma <;> cases hma
      | ok w =>
        obtain ⟨o, h1, rfl⟩ := (abbrev_ok hg n w).1 hma
        rw [hma] at h
        simp only at h
        rw [(find_opt hg.2.1 _ o).2 ⟨h1.1, rfl⟩] at h
        simp only at h
        rw [if_neg hc] at h
        exact ⟨o, h1, (process_help.1 h).1⟩
  · rintro ⟨o, h1, h2⟩
    exact long_help hg h1 v h2

theorem helpWord_ne {opts : List Opt} (hg : GoodOpts opts) {w : Str} (h : HelpWord opts w) :
    w ≠ py "--" := by
  rcases h with ⟨cs, c, cs', os, o, rfl, h1, h2, h3, -⟩ | ⟨n, o, hn, rfl, -⟩
  · intro e
    cases cs with
    | nil =>
      cases e
      obtain ⟨⟨d, hd, h4⟩, -⟩ := hg.2.2.2 _ h2
      rw [h3] at h4
      cases h4
      exact hd rfl
    | cons x cs => cases cs <;> cases e
  · intro e
    cases e
    exact hn rfl

/-- What one word does. -/
inductive WordDoes (opts : List Opt) (w : Str) : Prop
  | stop (h : w = ['-', '-'])
  | plain (h : PlainArg w)
      (ha : ∀ rest largs v, processArgs opts (w :: rest) largs v =
        processArgs opts rest (largs ++ [w]) v)
  | long (n : Str) (hn : n ≠ []) (h : w = '-' :: '-' :: n)
      (ha : ∀ rest largs v, processArgs opts (w :: rest) largs v =
        match processLong opts w v with
        | .error e => .error e
        | .ok values => processArgs opts rest largs values)
  | short (cs : Str) (hn : cs ≠ []) (h : w = '-' :: cs) (hd : cs.head? ≠ some '-')
      (ha : ∀ rest largs v, processArgs opts (w :: rest) largs v =
        match processShort opts cs v with
        | .error e => .error e
        | .ok values => processArgs opts rest largs values)

theorem wordDoes (opts : List Opt) (w : Str) : WordDoes opts w := by
  by_cases h1 : w = py "--"
  · exact .stop h1
  · by_cases h2 : hasPrefix (py "--") w = true
    · obtain ⟨n, rfl⟩ := hasPrefix_iff.1 h2
      have hn : n ≠ [] := by rintro rfl; exact h1 rfl
      refine .long n hn rfl fun rest largs v => ?_
      rw [processArgs, if_neg h1, if_pos h2]
      rfl
    · by_cases h3 : (hasPrefix (py "-") w && decide (w.length > 1)) = true
      · have h3' := h3
        rw [Bool.and_eq_true, decide_eq_true_eq] at h3'
        obtain ⟨cs, rfl⟩ := hasPrefix_iff.1 h3'.1
        have hcs : cs ≠ [] := by rintro rfl; exact absurd h3'.2 (by decide)
        refine .short cs hcs rfl ?_ fun rest largs v => ?_
        · intro hd
          cases cs with
          | nil => cases hd
          | cons c cs =>
            cases hd
            exact h2 (hasPrefix_iff.2 ⟨cs, rfl⟩)
        · rw [processArgs, if_neg h1, if_neg h2, if_pos h3]
          rfl
      · refine .plain ?_ fun rest largs v => ?_
        · rw [Bool.and_eq_true, decide_eq_true_eq] at h3
          cases w with
          | nil => right; decide
          | cons c a =>
            by_cases hc : c = '-'
            · subst hc
              cases a with
              | nil => left; rfl
              | cons b a => exact absurd ⟨hasPrefix_iff.2 ⟨b :: a, rfl⟩, by simp⟩ h3
            · right; simpa using hc
        · rw [processArgs, if_neg h1, if_neg h2, if_neg h3]

theorem helpWord_plain {opts : List Opt} {w : Str} (h : PlainArg w) : ¬ HelpWord opts w := by
  rintro (⟨cs, c, cs', os, o, rfl, -⟩ | ⟨n, o, hn, rfl, -⟩)
  · rcases h with h | h
    · cases cs <;> cases h
    · exact h rfl
  · rcases h with h | h
    · cases h
    · exact h rfl

theorem helpFirst_stop {opts : List Opt} (hg : GoodOpts opts) (rest : List Str) :
    ¬ HelpFirst opts (['-', '-'] :: rest) := by
  rintro ⟨pre, w, post, os, args, h, h1, h2, h3⟩
  cases pre with
  | nil => cases h; exact helpWord_ne hg h3 rfl
  | cons a pre => cases h; exact h1 List.mem_cons_self

/-- One word less. -/
theorem helpFirst_cons {opts : List Opt} {w : Str} {rest : List Str} (hw : w ≠ ['-', '-'])
    (key : ∀ pre os args, Means opts (w :: pre) os args → ∃ os' args', Means opts pre os' args')
    (key' : ∀ pre os args, Means opts pre os args → ∃ os' args', Means opts (w :: pre) os' args')
    (hh : ¬ HelpWord opts w) :
    HelpFirst opts (w :: rest) ↔ HelpFirst opts rest := by
  constructor
  · rintro ⟨pre, x, post, os, args, h, h1, h2, h3⟩
    cases pre with
    | nil => cases h; exact absurd h3 hh
    | cons a pre =>
      cases h
      obtain ⟨os', args', h4⟩ := key _ _ _ h2
      exact ⟨pre, x, post, os', args', rfl, fun h => h1 (List.mem_cons_of_mem _ h), h4, h3⟩
  · rintro ⟨pre, x, post, os, args, rfl, h1, h2, h3⟩
    obtain ⟨os', args', h4⟩ := key' _ _ _ h2
    refine ⟨w :: pre, x, post, os', args', rfl, ?_, h4, h3⟩
    intro h
    rcases List.mem_cons.1 h with h | h
    · exact hw h.symm
    · exact h1 h

theorem help_iff {opts : List Opt} (hg : GoodOpts opts) (argv largs : List Str)
    (v : Dict Str Bool) :
    processArgs opts argv largs v = .error .help ↔ HelpFirst opts argv := by
  induction argv generalizing largs v with
  | nil =>
    rw [processArgs]
    constructor
    · intro h; cases h
    · rintro ⟨pre, w, post, os, args, h, -⟩; cases pre <;> cases h
  | cons w rest ih =>
    have first : HelpWord opts w → HelpFirst opts (w :: rest) := fun h =>
      ⟨[], w, rest, [], [], rfl, (by simp), .done, h⟩
    rcases wordDoes opts w with h | ⟨h, ha⟩ | ⟨n, hn, h, ha⟩ | ⟨cs, hn, h, hd, ha⟩
    · subst h
      rw [processArgs, if_pos rfl]
      exact ⟨fun h => (by cases h), fun h => absurd h (helpFirst_stop hg rest)⟩
    · rw [ha, ih]
      have hw : w ≠ ['-', '-'] := by rintro rfl; rcases h with h | h <;> exact absurd h (by decide)
      refine (helpFirst_cons hw ?_ ?_ (helpWord_plain h)).symm
      · intro pre os args hm
        cases hm with
        | stop => exact absurd rfl hw
        | plain _ k => exact ⟨_, _, k⟩
        | letters _ _ k => exact ⟨_, _, k⟩
        | name _ _ k => exact ⟨_, _, k⟩
      · intro pre os args hm
        exact ⟨_, _, .plain h hm⟩
    · rw [ha]
      have hw : w ≠ ['-', '-'] := by rintro rfl; cases h; exact hn rfl
      cases hp : processLong opts w v with
      | error e =>
        simp only
        constructor
        · intro he
          cases he
          obtain ⟨o, h1, h2⟩ := (longHelp_iff hg w v).1 hp
          exact first (.inr ⟨n, o, hn, h, h1, h2⟩)
        · rintro ⟨pre, x, post, os, args, h0, h1, h2, h3⟩
          cases pre with
          | nil =>
            cases h0
            rcases h3 with ⟨cs, c, cs', os', o, h4, h5, h6, h7, h8⟩ | ⟨n', o, -, -, h4, h5⟩
            · rw [h] at h4
              cases cs with
              | nil =>
                cases h4
                obtain ⟨⟨d, hd, h9⟩, -⟩ := hg.2.2.2 _ h6
                rw [h7] at h9
                cases h9
                exact absurd rfl hd
              | cons y cs =>
                cases h4
                exact (letters_dash hg h5).elim
            · rw [(longHelp_iff hg _ v).2 ⟨o, h4, h5⟩] at hp
              cases hp; rfl
          | cons a pre =>
            cases h0
            have : ∃ o, Names opts w o := by
              cases h2 with
              | stop => exact absurd rfl hw
              | plain k _ => subst h; rcases k with k | k <;> exact absurd k (by simp)
              | letters _ k _ => cases h; exact (letters_dash hg k).elim
              | name _ k _ => exact ⟨_, k⟩
            obtain ⟨o, ho⟩ := this
            by_cases hod : o.dest = none
            · rw [(longHelp_iff hg _ v).2 ⟨o, ho, hod⟩] at hp
              cases hp; rfl
            · rw [(long_ok hg _ v _).2 ⟨o, ho, hod, rfl⟩] at hp
              cases hp
      | ok v' =>
        simp only
        rw [ih]
        obtain ⟨o, h1, h2, -⟩ := (long_ok hg _ _ _).1 hp
        refine (helpFirst_cons hw ?_ ?_ ?_).symm
        · intro pre os args hm
          cases hm with
          | stop => exact absurd rfl hw
          | plain _ k => exact ⟨_, _, k⟩
          | letters _ _ k => exact ⟨_, _, k⟩
          | name _ _ k => exact ⟨_, _, k⟩
        · intro pre os args hm
          rw [h] at h1 ⊢
          exact ⟨_, _, .name hn h1 hm⟩
        · rintro (⟨cs, c, cs', os', o', h4, h5, h6, h7, h8⟩ | ⟨n', o', -, -, h4, h5⟩)
          · rw [h] at h4
            cases cs with
            | nil =>
              cases h4
              obtain ⟨⟨d, hd, h9⟩, -⟩ := hg.2.2.2 _ h6
              rw [h7] at h9
              cases h9
              exact absurd rfl hd
            | cons y cs =>
              cases h4
              exact (letters_dash hg h5).elim
          · rw [names_unique hg h4 h1] at h5
            exact h2 h5
    · rw [ha]
      have hw : w ≠ ['-', '-'] := by rintro rfl; cases h; exact hd rfl
      have long_no : ∀ n', w ≠ '-' :: '-' :: n' := by
        rintro n' rfl; cases h; exact hd rfl
      cases hp : processShort opts cs v with
      | error e =>
        simp only
        constructor
        · intro he
          cases he
          obtain ⟨pre, c, post, os, o, rfl, h1⟩ := (shortHelp_iff hg cs v).1 hp
          exact first (.inl ⟨pre, c, post, os, o, h, h1⟩)
        · rintro ⟨pre, x, post, os, args, h0, h1, h2, h3⟩
          cases pre with
          | nil =>
            cases h0
            rcases h3 with ⟨cs', c, cs'', os', o, h4, h5⟩ | ⟨n', o, -, h4, -⟩
            · rw [h] at h4
              cases h4
              cases hp.symm.trans ((shortHelp_iff hg _ v).2 ⟨cs', c, cs'', os', o, rfl, h5⟩)
              rfl
            · exact absurd h4 (long_no _)
          | cons a pre =>
            cases h0
            have : ∃ os, Letters opts cs os := by
              cases h2 with
              | stop => exact absurd rfl hw
              | plain k _ =>
                subst h
                rcases k with k | k
                · cases k; exact absurd rfl hn
                · exact absurd rfl k
              | letters _ k _ => cases h; exact ⟨_, k⟩
              | name _ _ _ => exact absurd rfl (long_no _)
            obtain ⟨os', ho⟩ := this
            by_cases hod : ∃ o ∈ os', o.dest = none
            · rw [short_help hg ho v hod] at hp
              cases hp; rfl
            · rw [(short_ok hg _ v _).2 ⟨os', ho, fun o h1 h2 => hod ⟨o, h1, h2⟩, rfl⟩] at hp
              cases hp
      | ok v' =>
        simp only
        rw [ih]
        obtain ⟨os', h1, h2, -⟩ := (short_ok hg _ _ _).1 hp
        refine (helpFirst_cons hw ?_ ?_ ?_).symm
        · intro pre os args hm
          cases hm with
          | stop => exact absurd rfl hw
          | plain _ k => exact ⟨_, _, k⟩
          | letters _ _ k => exact ⟨_, _, k⟩
          | name _ _ k => exact ⟨_, _, k⟩
        · intro pre os args hm
          rw [h]
          exact ⟨_, _, .letters hn h1 hm⟩
        · rintro (⟨cs', c, cs'', os'', o', h4, h5⟩ | ⟨n', o', -, h4, -⟩)
          · rw [h] at h4
            cases h4
            cases hp.symm.trans ((shortHelp_iff hg _ v).2 ⟨cs', c, cs'', os'', o', rfl, h5⟩)
          · exact long_no _ h4

/-- The status of a tool, from what it does with options and arguments. -/
theorem status_is {opts : List Opt} (hg : GoodOpts opts) {misuse well : List Opt → List Str → Prop}
    {argv : List Str} {s : Nat} (hopt : ∀ e, parseArgs opts argv = .error e → s = e.status)
    (h : ∀ os args, Means opts argv os args → (¬ ∃ o ∈ os, o.dest = none) →
      (misuse os args → s = 2) ∧
      (¬ misuse os args → (well os args → s = 0) ∧ (¬ well os args → s = 1))) :
    StatusIs opts misuse well argv s := by
  have hh : parseArgs opts argv = .error .help ↔ HelpFirst opts argv := help_iff hg _ _ _
  refine ⟨fun hf => hopt _ (hh.2 hf), fun hf hm => ?_, fun os args hm hf => h os args hm ?_⟩
  · cases hp : parseArgs opts argv with
    | error e =>
      rw [hopt e hp]
      cases e with
      | help => exact absurd (hh.1 hp) hf
      | noSuch _ => rfl
      | ambiguous _ => rfl
      | noValue _ => rfl
    | ok r =>
      obtain ⟨os, h1, -⟩ := (C153_parse hg argv r.2 r.1).1 hp
      exact absurd ⟨os, r.2, h1⟩ hm
  · intro h1
    exact hf (hh.1 (C153_help hg hm h1))

theorem canRead_of_sources {fs : FileSystem} {files : List Str} (h : CanRead fs files) :
    ∃ src, Sources fs files src := by
  induction files with
  | nil => exact ⟨[], sources_nil⟩
  | cons f files ih =>
    obtain ⟨-, src, h1⟩ := h f List.mem_cons_self
    obtain ⟨out, h2⟩ := ih fun g hg => h g (List.mem_cons_of_mem _ hg)
    exact ⟨_, sources_cons h1 h2⟩

theorem canRead_read {fs : FileSystem} {files : List Str} (h : CanRead fs files) :
    ∃ srcs, Read fs files srcs := by
  induction files with
  | nil => exact ⟨[], rfl, fun p hp => (by cases hp)⟩
  | cons f files ih =>
    obtain ⟨-, src, h1⟩ := h f List.mem_cons_self
    obtain ⟨srcs, h2, h3⟩ := ih fun g hg => h g (List.mem_cons_of_mem _ hg)
    refine ⟨(f, src) :: srcs, by rw [List.map_cons, h2], fun p hp => ?_⟩
    rcases List.mem_cons.1 hp with rfl | hp
    · exact h1
    · exact h3 p hp

theorem canRead_of_decks {fs : FileSystem} {fuel : Nat} {files : List Str}
    (h : ∀ f ∈ files, ∃ cs, deckCards fs fuel f = .ok cs) : CanRead fs files := by
  intro f hf
  obtain ⟨cs, hc⟩ := h f hf
  obtain ⟨h1, src, h2, -⟩ := deckCards_ok hc
  exact ⟨h1, src, h2⟩

theorem exitStatus_one {α : Type} {r : Py α} (h : ∀ a, r ≠ .ok a) : exitStatus r = 1 := by
  cases r with
  | ok a => exact absurd rfl (h a)
  | error e => rfl

end H800
