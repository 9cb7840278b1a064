import Verif.Model.LastWords
import Verif.Spec.LastWords
import Verif.Lemmas.Status
import Verif.Props.Text
import Verif.Props.CommandTools

/-! Lemmas on what is said about a command line that is not understood. -/

namespace H800
open Spec

theorem replaceAux_drop (old new : Str) (k : Nat) (s : Str) :
    replaceAux old new k s = replaceAux old new 0 (s.drop k) := by
  induction k generalizing s with
  | zero => rfl
  | succ k ih =>
    cases s with
    | nil => simp [replaceAux]
    | cons c s => simpa [replaceAux] using ih s

theorem replaceAux_found {old new : Str} (h : old ≠ []) (s : Str) :
    replaceAux old new 0 (old ++ s) = new ++ replaceAux old new 0 s := by
  cases old with
  | nil => exact absurd rfl h
  | cons c o =>
    have hp : hasPrefix (c :: o) (c :: (o ++ s)) = true := hasPrefix_iff.2 ⟨s, rfl⟩
    simp only [List.cons_append, replaceAux, hp, if_true, List.length_cons, Nat.add_sub_cancel]
    rw [replaceAux_drop]; simp

theorem replaceAux_other {old new : Str} {c : Char} {s : Str} (h : ¬ ∃ r, c :: s = old ++ r) :
    replaceAux old new 0 (c :: s) = c :: replaceAux old new 0 s := by
  have hp : ¬ hasPrefix old (c :: s) = true := fun hp => h (hasPrefix_iff.1 hp)
  rw [replaceAux, if_neg hp]

theorem replaced_of (old new : Str) (h : old ≠ []) (n : Nat) :
    ∀ s : Str, s.length ≤ n → Replaced old new s (replaceAux old new 0 s) := by
  induction n with
  | zero =>
    intro s hs
    rw [List.length_eq_zero_iff.1 (Nat.le_zero.1 hs)]
    exact .nil
  | succ n ih =>
    intro s hs
    cases s with
    | nil => exact .nil
    | cons c s =>
      by_cases hp : ∃ r, c :: s = old ++ r
      · obtain ⟨r, hr⟩ := hp
        rw [hr, replaceAux_found h]
        refine .found (ih r ?_)
        have := congrArg List.length hr
        have := List.length_pos_of_ne_nil h
        simp only [List.length_cons, List.length_append] at *
        omega
      · rw [replaceAux_other hp]
        exact .other hp (ih s (by simpa using hs))

theorem replaced_eq {old new s t : Str} (h : old ≠ []) (hr : Replaced old new s t) :
    t = replaceAux old new 0 s := by
  induction hr with
  | nil => rfl
  | found _ ih => rw [replaceAux_found h, ← ih]
  | other hp _ ih => rw [replaceAux_other hp, ← ih]

theorem replaceAux_prog (prog u : Str) :
    replaceAux (py "%prog") prog 0 (py "%prog" ++ u) = prog ++ replaceAux (py "%prog") prog 0 u := by
  simp [replaceAux, hasPrefix]

theorem joinText_sep (sep : Str) (l : List Str) : joinText sep l = List.intercalate sep l := by
  match l with
  | [] => rfl
  | [x] => simp [joinText, List.intercalate]
  | x :: y :: l =>
    rw [joinText, joinText_sep sep (y :: l)]
    simp [List.intercalate, List.intersperse]

section
variable {opts : List Opt}

theorem short_append (hg : GoodOpts opts) {cs rest : Str} {os : List Opt} (h : Letters opts cs os)
    (hd : ∀ o ∈ os, o.dest ≠ none) (v : Dict Str Bool) :
    processShort opts (cs ++ rest) v = processShort opts rest (setAll v os) := by
  induction h generalizing v with
  | nil => rfl
  | @cons c o cs os h1 h2 ih =>
    rw [List.cons_append, processShort, (find_opt hg.1 _ _).2 h1]
    simp only
    rw [(process_ok o v (setAll v [o])).2 ⟨hd o List.mem_cons_self, rfl⟩]
    simp only
    rw [ih (fun o ho => hd o (List.mem_cons_of_mem _ ho)), ← setAll_cons]

/-- The ways to fail at letters. -/
theorem short_error (hg : GoodOpts opts) {cs : Str} {v : Dict Str Bool} {e : OptExit}
    (h : processShort opts cs v = .error e) : e = .help ∨
    ∃ pre c post os, cs = pre ++ c :: post ∧ Letters opts pre os ∧ (∀ o ∈ os, o.dest ≠ none) ∧
      (∀ o ∈ opts, o.short ≠ ['-', c]) ∧ e = .noSuch ['-', c] := by
  induction cs generalizing v with
  | nil => cases h
  | cons c cs ih =>
    rw [processShort] at h
    cases hf : opts.find? (fun o => decide (o.short = ['-', c])) with
    | none =>
      rw [hf] at h
      cases h
      refine .inr ⟨[], c, cs, [], rfl, .nil, (by simp), fun o ho => ?_, rfl⟩
      simpa using List.find?_eq_none.1 hf o ho
    | some o =>
      have ho := (find_opt hg.1 _ _).1 hf
      rw [hf] at h
      simp only at h
      cases hp : o.process v with
      | error e' =>
        rw [hp] at h
        cases h
        exact .inl (process_help.1 hp).2
      | ok v' =>
        rw [hp] at h
        have hd := ((process_ok o v v').1 hp).1
        rcases ih h with h | ⟨pre, d, post, os, rfl, h1, h2, h3, h4⟩
        · exact .inl h
        · exact .inr ⟨c :: pre, d, post, o :: os, rfl, .cons ho h1, (by
            intro p hp
            rcases List.mem_cons.1 hp with rfl | hp
            · exact hd
            · exact h2 p hp), h3, h4⟩

theorem short_fault (hg : GoodOpts opts) {pre post : Str} {c : Char} {os : List Opt}
    (h1 : Letters opts pre os) (h2 : ∀ o ∈ os, o.dest ≠ none) (h3 : ∀ o ∈ opts, o.short ≠ ['-', c])
    (v : Dict Str Bool) : processShort opts (pre ++ c :: post) v = .error (.noSuch ['-', c]) := by
  rw [short_append hg h1 h2, processShort]
  have : opts.find? (fun o => decide (o.short = ['-', c])) = none := by
    rw [List.find?_eq_none]
    intro o ho
    simpa using h3 o ho
  rw [this]

/-- The names that begin with a word, in order. -/
theorem choices (hg : GoodOpts opts) (n : Str) :
    (pySortedStr ((opts.map (·.long)).filter (hasPrefix n))).Nodup ∧
    (∀ x, x ∈ pySortedStr ((opts.map (·.long)).filter (hasPrefix n)) ↔
      n <+: x ∧ ∃ o ∈ opts, o.long = x) ∧
    (pySortedStr ((opts.map (·.long)).filter (hasPrefix n))).Pairwise NotAfter := by
  refine ⟨(pySortedStr_perm _).nodup_iff.2 (hg.2.1.filter _), fun x => ?_, ((C175_sorted _ _).1 rfl).2⟩
  rw [(pySortedStr_perm _).mem_iff, List.mem_filter, hasPrefix_prefix, List.mem_map]
  exact and_comm

theorem choices_unique {n : Str} {a b : List Str} (ha : a.Nodup)
    (ha' : ∀ x, x ∈ a ↔ n <+: x ∧ ∃ o ∈ opts, o.long = x) (ha'' : a.Pairwise NotAfter)
    (hb : b.Nodup) (hb' : ∀ x, x ∈ b ↔ n <+: x ∧ ∃ o ∈ opts, o.long = x) (hb'' : b.Pairwise NotAfter) :
    a = b := by
  have hp : a.Perm b := (List.perm_ext_iff_of_nodup ha hb).2 fun x => (ha' x).trans (hb' x).symm
  rw [← (C175_sorted a b).2 ⟨hp.symm, hb''⟩]
  exact ((C175_sorted a a).2 ⟨.refl _, ha''⟩).symm

/-- The ways to fail at a name. -/
theorem abbrev_error (hg : GoodOpts opts) {n : Str} {e : OptExit}
    (h : matchAbbrev n (opts.map (·.long)) = .error e) :
    ((∀ o ∈ opts, ¬ n <+: o.long) ∧ e = .noSuch n) ∨
    ((∀ o ∈ opts, o.long ≠ n) ∧ (∃ a ∈ opts, ∃ b ∈ opts, a.long ≠ b.long ∧ n <+: a.long ∧ n <+: b.long) ∧
      e = .ambiguous n) := by
  unfold matchAbbrev at h
  split at h
  · cases h
  rename_i hc
  have hne : ∀ o ∈ opts, o.long ≠ n := by
    intro o ho e
    exact hc (List.contains_iff_mem.2 (List.mem_map.2 ⟨o, ho, e⟩))
  split at h
  · rename_i hf
    cases h
    refine .inl ⟨fun o ho hp => ?_, rfl⟩
    have : o.long ∈ (opts.map (·.long)).filter (hasPrefix n) :=
      List.mem_filter.2 ⟨List.mem_map.2 ⟨o, ho, rfl⟩, hasPrefix_prefix.2 hp⟩
    rw [hf] at this
    cases this
  · cases h
  · rename_i h1 h2
    cases h
    refine .inr ⟨hne, ?_, rfl⟩
    generalize hl : (opts.map (·.long)).filter (hasPrefix n) = l at h1 h2
    match l, hl with
    | [], _ => exact absurd rfl h1
    | [x], _ => exact absurd rfl (h2 x)
    | x :: y :: l, hl =>
      have hm : ∀ z ∈ x :: y :: l, ∃ o ∈ opts, o.long = z ∧ n <+: z := by
        intro z hz
        rw [← hl] at hz
        obtain ⟨h1, h2⟩ := List.mem_filter.1 hz
        obtain ⟨o, ho, e⟩ := List.mem_map.1 h1
        exact ⟨o, ho, e, hasPrefix_prefix.1 h2⟩
      have hnd : (x :: y :: l).Nodup := by rw [← hl]; exact hg.2.1.filter _
      obtain ⟨a, ha, rfl, ha'⟩ := hm x (by simp)
      obtain ⟨b, hb, rfl, hb'⟩ := hm y (by simp)
      exact ⟨a, ha, b, hb, (by simp at hnd; exact hnd.1.1), ha', hb'⟩

theorem abbrev_none {n : Str} (h : ∀ o ∈ opts, ¬ n <+: o.long) :
    matchAbbrev n (opts.map (·.long)) = .error (.noSuch n) := by
  unfold matchAbbrev
  have h1 : ¬ (opts.map (·.long)).contains n = true := by
    rw [List.contains_iff_mem, List.mem_map]
    rintro ⟨o, ho, rfl⟩
    exact h o ho (List.prefix_refl _)
  have h2 : (opts.map (·.long)).filter (hasPrefix n) = [] := by
    rw [List.filter_eq_nil_iff]
    intro x hx
    obtain ⟨o, ho, rfl⟩ := List.mem_map.1 hx
    rw [hasPrefix_prefix]
    exact h o ho
  rw [if_neg h1, h2]

theorem abbrev_more {n : Str} {a b : Opt} (h : ∀ o ∈ opts, o.long ≠ n) (ha : a ∈ opts) (hb : b ∈ opts)
    (hab : a.long ≠ b.long) (ha' : n <+: a.long) (hb' : n <+: b.long) :
    matchAbbrev n (opts.map (·.long)) = .error (.ambiguous n) := by
  unfold matchAbbrev
  have h1 : ¬ (opts.map (·.long)).contains n = true := by
    rw [List.contains_iff_mem, List.mem_map]
    rintro ⟨o, ho, e⟩
    exact h o ho e
  rw [if_neg h1]
  have hma : a.long ∈ (opts.map (·.long)).filter (hasPrefix n) :=
    List.mem_filter.2 ⟨List.mem_map.2 ⟨a, ha, rfl⟩, hasPrefix_prefix.2 ha'⟩
  have hmb : b.long ∈ (opts.map (·.long)).filter (hasPrefix n) :=
    List.mem_filter.2 ⟨List.mem_map.2 ⟨b, hb, rfl⟩, hasPrefix_prefix.2 hb'⟩
  split
  · rename_i hf; rw [hf] at hma; cases hma
  · rename_i x hf
    rw [hf] at hma hmb
    exact absurd ((List.mem_singleton.1 hma).trans (List.mem_singleton.1 hmb).symm) hab
  · rfl

theorem equals_split (w : Str) :
    (if w.contains '=' then splitFirst w '=' else w) = splitFirst w '=' := by
  split
  · rfl
  · rename_i h
    exact (splitFirst_id (by rw [← List.contains_iff_mem]; exact h)).symm

/-- The text of an error of `optparse`. -/
theorem message_long (hg : GoodOpts opts) {w : Str} {v : Dict Str Bool} {e : OptExit} (hw : w ≠ [])
    (h : processLong opts ('-' :: '-' :: w) v = .error e) :
    e = .help ∨ ∃ t, e.message opts = some t ∧ WordFault opts ('-' :: '-' :: w) t := by
  unfold processLong at h
  simp only [equals_split] at h
  have hbf := beforeFirst '=' ('-' :: '-' :: w)
  generalize hn : splitFirst ('-' :: '-' :: w) '=' = n at h hbf
  cases ha : matchAbbrev n (opts.map (·.long)) with
  | error e' =>
    rw [ha] at h
    cases h
    right
    rcases abbrev_error hg ha with ⟨h1, rfl⟩ | ⟨h1, ⟨a, h2, b, h3, h4, h5, h6⟩, rfl⟩
    · exact ⟨_, rfl, .unknown hbf hw h1⟩
    · obtain ⟨c1, c2, c3⟩ := choices hg n
      refine ⟨_, rfl, ?_⟩
      rw [joinText_sep]
      exact .ambiguous hbf hw h1 h2 h3 h4 h5 h6 c1 c2 c3
  | ok long =>
    obtain ⟨o, ho, rfl⟩ := (abbrev_ok hg n long).1 ha
    rw [ha] at h
    simp only at h
    rw [(find_opt hg.2.1 _ _).2 ⟨ho.1, rfl⟩] at h
    simp only at h
    split at h
    · rename_i hc
      cases h
      right
      refine ⟨_, rfl, ?_⟩
      rcases hbf with ⟨h1, h2 | ⟨r, h2⟩⟩
      · exact absurd (h2 ▸ List.contains_iff_mem.1 hc) h1
      · exact .value h2 h1 ho
    · exact .inl (process_help.1 h).2

theorem message_short (hg : GoodOpts opts) {cs : Str} {v : Dict Str Bool} {e : OptExit}
    (hd : cs.head? ≠ some '-') (h : processShort opts cs v = .error e) :
    e = .help ∨ ∃ t, e.message opts = some t ∧ WordFault opts ('-' :: cs) t := by
  rcases short_error hg h with h | ⟨pre, c, post, os, rfl, h1, h2, h3, rfl⟩
  · exact .inl h
  · refine .inr ⟨_, rfl, ?_⟩
    exact .letter hd h1 h2 h3

/-- A word with a fault stops the run, and the fault is told. -/
theorem fault_word (hg : GoodOpts opts) {w t : Str} (h : WordFault opts w t) (rest largs : List Str)
    (v : Dict Str Bool) :
    ∃ e, processArgs opts (w :: rest) largs v = .error e ∧ e.message opts = some t := by
  rcases wordDoes opts w with hs | ⟨hp, ha⟩ | ⟨n, hn, hw, ha⟩ | ⟨cs, hn, hw, hd, ha⟩
  · subst hs
    generalize hw : (['-', '-'] : Str) = w at h
    cases h with
    | @letter cs cs' c os h1 _ _ _ =>
      rw [List.cons_append] at hw
      rw [List.cons.injEq] at hw
      rw [← hw.2] at h1
      exact absurd rfl h1
    | unknown _ h1 _ => cases hw; exact absurd rfl h1
    | ambiguous _ h1 => cases hw; exact absurd rfl h1
    | @value _ n v o h1 h2 h3 =>
      cases hw
      have : '=' ∈ (['-', '-'] : Str) := by rw [h1]; simp
      exact absurd this (by decide)
  · exfalso
    cases h with
    | @letter cs cs' c os h1 _ _ _ => rcases hp with hp | hp <;> simp at hp
    | unknown _ h1 _ => rcases hp with hp | hp <;> simp at hp
    | ambiguous _ h1 => rcases hp with hp | hp <;> simp at hp
    | value h1 => rcases hp with hp | hp <;> simp at hp
  · have key : ∀ e, processLong opts w v = .error e → e.message opts = some t →
        ∃ e, processArgs opts (w :: rest) largs v = .error e ∧ e.message opts = some t := by
      intro e he hm
      exact ⟨e, by rw [ha, he], hm⟩
    cases h with
    | @letter cs cs' c os h1 _ _ _ =>
      rw [List.cons_append] at hw
      rw [List.cons.injEq] at hw
      rw [hw.2] at h1
      exact absurd rfl h1
    | @unknown w n h1 h2 h3 =>
      refine key (.noSuch n) ?_ rfl
      unfold processLong
      simp only [equals_split]
      rw [beforeFirst_unique h1, abbrev_none h3]
    | @ambiguous w n a b names h1 h2 h3 h4 h5 h6 h7 h8 h9 h10 h11 =>
      refine key (.ambiguous n) ?_ ?_
      · unfold processLong
        simp only [equals_split]
        rw [beforeFirst_unique h1, abbrev_more h3 h4 h5 h6 h7 h8]
      · obtain ⟨c1, c2, c3⟩ := choices hg n
        rw [choices_unique h9 h10 h11 c1 c2 c3, ← joinText_sep]
        rfl
    | @value w n x o h1 h2 h3 =>
      refine key (.noValue o.long) ?_ rfl
      have hb : BeforeFirst '=' ('-' :: '-' :: w) n := ⟨h2, .inr ⟨x, h1⟩⟩
      unfold processLong
      simp only [equals_split]
      rw [beforeFirst_unique hb, (abbrev_ok hg n _).2 ⟨o, h3, rfl⟩]
      simp only
      rw [(find_opt hg.2.1 _ _).2 ⟨h3.1, rfl⟩]
      simp only
      rw [if_pos]
      rw [List.contains_iff_mem, h1]
      simp
  · cases h with
    | @letter cs' cs'' c os h1 h2 h3 h4 =>
      rw [List.cons_append, List.cons.injEq] at hw
      rw [← hw.2] at ha
      refine ⟨.noSuch ['-', c], ?_, rfl⟩
      rw [ha, short_fault hg h2 h3 h4]
    | unknown => cases hw; exact absurd rfl hd
    | ambiguous => cases hw; exact absurd rfl hd
    | value => cases hw; exact absurd rfl hd

/-- Words that are options and arguments are passed over. -/
theorem args_append (hg : GoodOpts opts) {pre args : List Str} {os : List Opt}
    (h : Means opts pre os args) (hs : ['-', '-'] ∉ pre) (hd : ∀ o ∈ os, o.dest ≠ none)
    (rest largs : List Str) (v : Dict Str Bool) :
    processArgs opts (pre ++ rest) largs v = processArgs opts rest (largs ++ args) (setAll v os) := by
  induction pre generalizing largs v os args with
  | nil => cases h; simp [setAll]
  | cons w pre ih =>
    have hs' : ['-', '-'] ∉ pre := fun h => hs (List.mem_cons_of_mem _ h)
    rcases wordDoes opts w with h0 | ⟨hp, ha⟩ | ⟨n, hn, hw, ha⟩ | ⟨cs, hn, hw, hd', ha⟩
    · exact absurd (by rw [h0]; exact List.mem_cons_self) hs
    · rw [List.cons_append, ha]
      cases h with
      | stop => exact absurd List.mem_cons_self hs
      | plain _ h => rw [ih h hs' hd]; simp
      | letters h1 _ _ => rcases hp with hp | hp <;> simp at hp; exact absurd hp h1
      | name => rcases hp with hp | hp <;> simp at hp
    · rw [List.cons_append, ha]
      subst hw
      cases h with
      | stop => exact absurd List.mem_cons_self hs
      | plain k _ => rcases k with k | k <;> simp at k
      | letters h1 h2 h3 => exact (letters_dash hg h2).elim
      | @name _ _ _ o os h1 h2 h3 =>
        rw [(long_ok hg _ v _).2 ⟨o, h2, hd o List.mem_cons_self, rfl⟩]
        simp only
        rw [ih h3 hs' fun o ho => hd o (List.mem_cons_of_mem _ ho), ← setAll_cons]
    · rw [List.cons_append, ha]
      subst hw
      cases h with
      | stop => exact absurd rfl hd'
      | plain k _ => rcases k with k | k <;> simp at k; exact absurd k hn
      | @letters _ _ _ os os' h1 h2 h3 =>
        rw [(short_ok hg _ v _).2 ⟨os, h2, fun o ho => hd o (List.mem_append_left _ ho), rfl⟩]
        simp only
        rw [ih h3 hs' fun o ho => hd o (List.mem_append_right _ ho), ← setAll_append]
      | name => exact absurd rfl hd'

theorem fault_complete (hg : GoodOpts opts) {argv : List Str} {t : Str}
    (h : NotUnderstood opts argv t) :
    ∃ e, parseArgs opts argv = .error e ∧ e.message opts = some t := by
  obtain ⟨pre, w, post, os, args, rfl, h1, h2, h3, h4⟩ := h
  unfold parseArgs
  rw [args_append hg h2 h1 h3]
  exact fault_word hg h4 _ _ _

theorem fault_sound (hg : GoodOpts opts) (argv : List Str) {largs : List Str} {v : Dict Str Bool}
    {e : OptExit} (h : processArgs opts argv largs v = .error e) (he : e ≠ .help) :
    ∃ t, e.message opts = some t ∧ NotUnderstood opts argv t := by
  induction argv generalizing largs v with
  | nil => cases h
  | cons w rest ih =>
    have first : ∀ t, WordFault opts w t → NotUnderstood opts (w :: rest) t := fun t h =>
      ⟨[], w, rest, [], [], rfl, (by simp), .done, (by simp), h⟩
    have later : w ≠ ['-', '-'] → ∀ os', (∀ o ∈ os', o.dest ≠ none) →
        (∀ pre os args, Means opts pre os args → ∃ args', Means opts (w :: pre) (os' ++ os) args') →
        ∀ t, NotUnderstood opts rest t → NotUnderstood opts (w :: rest) t := by
      rintro hw os' hd hm t ⟨pre, x, post, os, args, rfl, h1, h2, h3, h4⟩
      obtain ⟨args', hm'⟩ := hm _ _ _ h2
      refine ⟨w :: pre, x, post, os' ++ os, args', rfl, ?_, hm', ?_, h4⟩
      · intro h
        rcases List.mem_cons.1 h with h | h
        · exact hw h.symm
        · exact h1 h
      · intro o ho
        rcases List.mem_append.1 ho with ho | ho
        · exact hd o ho
        · exact h3 o ho
    rcases wordDoes opts w with h0 | ⟨hp, ha⟩ | ⟨n, hn, hw, ha⟩ | ⟨cs, hn, hw, hd, ha⟩
    · subst h0
      rw [processArgs, if_pos rfl] at h
      cases h
    · rw [ha] at h
      obtain ⟨t, h1, h2⟩ := ih h
      have hw : w ≠ ['-', '-'] := by rintro rfl; rcases hp with h | h <;> exact absurd h (by decide)
      exact ⟨t, h1, later hw [] (by simp) (fun pre os args hm => ⟨_, .plain hp hm⟩) t h2⟩
    · rw [ha] at h
      have hw' : w ≠ ['-', '-'] := by rintro rfl; cases hw; exact hn rfl
      cases hl : processLong opts w v with
      | error e' =>
        rw [hl] at h
        cases h
        subst hw
        rcases message_long hg hn hl with h | ⟨t, h1, h2⟩
        · exact absurd h he
        · exact ⟨t, h1, first t h2⟩
      | ok v' =>
        rw [hl] at h
        obtain ⟨t, h1, h2⟩ := ih h
        obtain ⟨o, h3, h4, -⟩ := (long_ok hg w v v').1 hl
        subst hw
        exact ⟨t, h1, later hw' [o] (by simpa using h4)
          (fun pre os args hm => ⟨_, .name hn h3 hm⟩) t h2⟩
    · rw [ha] at h
      have hw' : w ≠ ['-', '-'] := by rintro rfl; cases hw; exact hd rfl
      cases hl : processShort opts cs v with
      | error e' =>
        rw [hl] at h
        cases h
        subst hw
        rcases message_short hg hd hl with h | ⟨t, h1, h2⟩
        · exact absurd h he
        · exact ⟨t, h1, first t h2⟩
      | ok v' =>
        rw [hl] at h
        obtain ⟨t, h1, h2⟩ := ih h
        obtain ⟨os, h3, h4, -⟩ := (short_ok hg cs v v').1 hl
        subst hw
        exact ⟨t, h1, later hw' os h4 (fun pre os' args hm => ⟨_, .letters hn h3 hm⟩) t h2⟩

end

end H800
