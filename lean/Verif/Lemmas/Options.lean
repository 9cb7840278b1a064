import Verif.Spec.Options
import Verif.Lemmas.Tools
import Verif.Lemmas.Symbols

/-!
Lemmas for command lines.
-/

namespace H800
open Spec

/-- The values after these options. -/
def setAll (v : Dict Str Bool) (os : List Opt) : Dict Str Bool :=
  os.foldl (fun v o => match o.dest with
    | none => v
    | some d => dset v d true) v

theorem setAll_append (v : Dict Str Bool) (a b : List Opt) :
    setAll v (a ++ b) = setAll (setAll v a) b := by
  unfold setAll
  rw [List.foldl_append]

theorem setAll_cons (v : Dict Str Bool) (o : Opt) (os : List Opt) :
    setAll v (o :: os) = setAll (setAll v [o]) os := rfl

theorem nodup_map_inj {α β : Type} {f : α → β} {l : List α} (h : (l.map f).Nodup) {a b : α}
    (ha : a ∈ l) (hb : b ∈ l) (e : f a = f b) : a = b := by
  induction l with
  | nil => cases ha
  | cons x l ih =>
    rw [List.map_cons, List.nodup_cons] at h
    rcases List.mem_cons.1 ha with ha | ha <;> rcases List.mem_cons.1 hb with hb | hb
    · rw [ha, hb]
    · exact absurd (List.mem_map.2 ⟨b, hb, by rw [← e, ha]⟩) h.1
    · exact absurd (List.mem_map.2 ⟨a, ha, by rw [e, hb]⟩) h.1
    · exact ih h.2 ha hb

theorem find_opt {β : Type} [DecidableEq β] {opts : List Opt} {f : Opt → β}
    (h : (opts.map f).Nodup) (x : β) (o : Opt) :
    opts.find? (fun o => decide (f o = x)) = some o ↔ o ∈ opts ∧ f o = x := by
  constructor
  · intro e
    exact ⟨List.mem_of_find?_eq_some e, by simpa using List.find?_some e⟩
  · rintro ⟨h1, h2⟩
    cases hf : opts.find? (fun o => decide (f o = x)) with
    | none => exact absurd h2 (by simpa using List.find?_eq_none.1 hf o h1)
    | some p =>
      have h3 := List.mem_of_find?_eq_some hf
      have h4 : f p = x := by simpa using List.find?_some hf
      rw [nodup_map_inj h h3 h1 (h4.trans h2.symm)]

theorem process_ok (o : Opt) (v v' : Dict Str Bool) :
    o.process v = .ok v' ↔ o.dest ≠ none ∧ v' = setAll v [o] := by
  unfold Opt.process setAll
  rw [List.foldl_cons, List.foldl_nil]
  cases o.dest with
  | none => simp
  | some d => simp [eq_comm]

theorem short_ok {opts : List Opt} (hg : GoodOpts opts) (cs : Str) (v v' : Dict Str Bool) :
    processShort opts cs v = .ok v' ↔
      ∃ os, Letters opts cs os ∧ (∀ o ∈ os, o.dest ≠ none) ∧ v' = setAll v os := by
  induction cs generalizing v with
  | nil =>
    constructor
    · intro h; cases h; exact ⟨[], .nil, (fun _ h => nomatch h), rfl⟩
    · rintro ⟨os, h1, -, rfl⟩; cases h1; rfl
  | cons c cs ih =>
    rw [processShort]
    cases hf : opts.find? (fun o => decide (o.short = ['-', c])) with
    | none =>
      constructor
      · intro h; cases h
      · rintro ⟨os, h1, -, -⟩
        cases h1 with
        | cons h1 _ => exact absurd h1.2 (by simpa using List.find?_eq_none.1 hf _ h1.1)
    | some o =>
      have ho := (find_opt hg.1 _ _).1 hf
      simp only
      cases hp : o.process v with
      | error e =>
        constructor
        · intro h; cases h
        · rintro ⟨os, h1, h2, -⟩
          cases h1 with
          | @cons _ p _ os h1 _ =>
            have : p = o := nodup_map_inj hg.1 h1.1 ho.1 (h1.2.trans ho.2.symm)
            subst this
            have := (process_ok p v (setAll v [p])).2 ⟨h2 _ List.mem_cons_self, rfl⟩
            rw [hp] at this
            cases this
      | ok w =>
        obtain ⟨h3, rfl⟩ := (process_ok o v w).1 hp
        simp only
        rw [ih]
        constructor
        · rintro ⟨os, h1, h2, rfl⟩
          refine ⟨o :: os, .cons ho h1, ?_, ?_⟩
          · intro p hp
            rcases List.mem_cons.1 hp with rfl | hp
            · exact h3
            · exact h2 p hp
          · rfl
        · rintro ⟨os, h1, h2, rfl⟩
          cases h1 with
          | @cons _ p _ os h1 h4 =>
            have : p = o := nodup_map_inj hg.1 h1.1 ho.1 (h1.2.trans ho.2.symm)
            subst this
            exact ⟨os, h4, fun q hq => h2 q (List.mem_cons_of_mem _ hq), by rw [setAll_cons]⟩

theorem filter_one {α : Type} {l : List α} {p : α → Bool} {a : α}
    (h : l.filter p = [a]) : ∀ b ∈ l, p b = true → b = a := by
  intro b hb hp
  have : b ∈ l.filter p := List.mem_filter.2 ⟨hb, hp⟩
  rw [h] at this
  exact List.mem_singleton.1 this

theorem filter_unique {α : Type} {l : List α} (hl : l.Nodup) {p : α → Bool} {a : α} (ha : a ∈ l)
    (hp : p a = true) (h : ∀ b ∈ l, p b = true → b = a) : l.filter p = [a] := by
  induction l with
  | nil => cases ha
  | cons x l ih =>
    rw [List.nodup_cons] at hl
    rw [List.filter_cons]
    by_cases hx : p x = true
    · have := h x List.mem_cons_self hx
      subst this
      rw [if_pos hx]
      congr 1
      rw [List.filter_eq_nil_iff]
      intro b hb hpb
      exact hl.1 (h b (List.mem_cons_of_mem _ hb) hpb ▸ hb)
    · rw [if_neg hx]
      refine ih hl.2 ?_ (fun b hb => h b (List.mem_cons_of_mem _ hb))
      rcases List.mem_cons.1 ha with rfl | ha
      · exact absurd hp hx
      · exact ha

theorem hasPrefix_prefix {p s : Str} : hasPrefix p s = true ↔ p <+: s := by
  unfold hasPrefix
  rw [List.isPrefixOf_iff_prefix]

/-- The word found is the name of the option named. -/
theorem abbrev_ok {opts : List Opt} (hg : GoodOpts opts) (n w : Str) :
    matchAbbrev n (opts.map (·.long)) = .ok w ↔ ∃ o, Names opts n o ∧ o.long = w := by
  unfold matchAbbrev
  split
  · rename_i hc
    rw [List.contains_iff_mem, List.mem_map] at hc
    obtain ⟨o, h1, h2⟩ := hc
    constructor
    · intro e; cases e; exact ⟨o, ⟨h1, .inl h2⟩, h2⟩
    · rintro ⟨p, ⟨h3, h4⟩, rfl⟩
      rcases h4 with h4 | ⟨-, h4⟩
      · rw [h4]
      · rw [← h4 o h1 (h2 ▸ List.prefix_refl _), h2]
  · rename_i hc
    rw [List.contains_iff_mem, List.mem_map] at hc
    have key : ∀ o, Names opts n o → (opts.map (·.long)).filter (hasPrefix n) = [o.long] := by
      rintro o ⟨h1, h2⟩
      rcases h2 with h2 | ⟨h2, h3⟩
      · exact absurd ⟨o, h1, h2⟩ hc
      · refine filter_unique hg.2.1 (List.mem_map.2 ⟨o, h1, rfl⟩) (hasPrefix_prefix.2 h2) ?_
        intro b hb hp
        obtain ⟨p, h4, rfl⟩ := List.mem_map.1 hb
        rw [h3 p h4 (hasPrefix_prefix.1 hp)]
    constructor
    · intro h
      split at h
      · cases h
      · rename_i w' hw
        cases h
        have hm : w ∈ (opts.map (·.long)).filter (hasPrefix n) := by rw [hw]; exact List.mem_singleton.2 rfl
        obtain ⟨h1, h2⟩ := List.mem_filter.1 hm
        obtain ⟨o, h3, rfl⟩ := List.mem_map.1 h1
        refine ⟨o, ⟨h3, .inr ⟨hasPrefix_prefix.1 h2, fun p hp hq => ?_⟩⟩, rfl⟩
        have := filter_one hw p.long (List.mem_map.2 ⟨p, hp, rfl⟩) (hasPrefix_prefix.2 hq)
        exact nodup_map_inj hg.2.1 hp h3 this
      · cases h
    · rintro ⟨o, h1, rfl⟩
      rw [key o h1]

theorem names_noeq {opts : List Opt} (hg : GoodOpts opts) {n : Str} {o : Opt} (h : Names opts n o) :
    '=' ∉ n := by
  obtain ⟨-, m, -, h1, h2⟩ := hg.2.2.2 o h.1
  have h3 : '=' ∉ o.long := by
    rw [h2]
    intro h
    rcases List.mem_cons.1 h with h | h
    · exact absurd h (by decide)
    · rcases List.mem_cons.1 h with h | h
      · exact absurd h (by decide)
      · exact h1 h
  rcases h.2 with h4 | ⟨h4, -⟩
  · exact h4 ▸ h3
  · exact fun h5 => h3 (h4.subset h5)

theorem long_ok {opts : List Opt} (hg : GoodOpts opts) (n : Str) (v v' : Dict Str Bool) :
    processLong opts n v = .ok v' ↔ ∃ o, Names opts n o ∧ o.dest ≠ none ∧ v' = setAll v [o] := by
  unfold processLong
  simp only
  by_cases hc : n.contains '=' = true
  · rw [if_pos hc]
    constructor
    · intro h
      split at h
      · cases h
      · split at h
        · cases h
        · rw [if_pos hc] at h; cases h
    · rintro ⟨o, h1, -⟩
      exact absurd (List.contains_iff_mem.1 hc) (names_noeq hg h1)
  · rw [if_neg hc]
    cases hm : matchAbbrev n (opts.map (·.long)) with
    | error e =>
      constructor
      · intro h; cases h
      · rintro ⟨o, h1, -⟩
        rw [(abbrev_ok hg n _).2 ⟨o, h1, rfl⟩] at hm
        cases hm
    | ok w =>
      obtain ⟨o, h1, rfl⟩ := (abbrev_ok hg n w).1 hm
      simp only
      rw [(find_opt hg.2.1 _ o).2 ⟨h1.1, rfl⟩]
      simp only
      rw [if_neg hc, process_ok]
      constructor
      · rintro ⟨h2, rfl⟩; exact ⟨o, h1, h2, rfl⟩
      · rintro ⟨p, h2, h3, rfl⟩
        have : p = o := by
          have := (abbrev_ok hg n _).2 ⟨p, h2, rfl⟩
          rw [hm] at this
          exact nodup_map_inj hg.2.1 h2.1 h1.1 (Except.ok.inj this).symm
        subst this
        exact ⟨h3, rfl⟩

theorem args_ok {opts : List Opt} (hg : GoodOpts opts) (argv largs : List Str)
    (v v' : Dict Str Bool) (args : List Str) :
    processArgs opts argv largs v = .ok (v', args) ↔
      ∃ os r, Means opts argv os r ∧ (∀ o ∈ os, o.dest ≠ none) ∧ args = largs ++ r ∧
        v' = setAll v os := by
  induction argv generalizing largs v with
  | nil =>
    rw [processArgs]
    constructor
    · intro h; cases h; exact ⟨[], [], .done, (fun _ h => nomatch h), by simp, rfl⟩
    · rintro ⟨os, r, h1, -, rfl, rfl⟩; cases h1; simp [setAll]
  | cons a argv ih =>
    rw [processArgs]
    by_cases h1 : a = py "--"
    · rw [if_pos h1]
      subst h1
      constructor
      · intro h; cases h; exact ⟨[], argv, .stop _, (fun _ h => nomatch h), rfl, rfl⟩
      · rintro ⟨os, r, h, -, rfl, rfl⟩
        cases h with
        | stop => rfl
        | plain h _ => rcases h with h | h <;> exact absurd h (by decide)
        | letters _ h _ =>
          cases h with
          | cons h _ =>
            obtain ⟨⟨c, hc, h2⟩, -⟩ := hg.2.2.2 _ h.1
            rw [h.2] at h2
            cases h2
            exact absurd rfl hc
        | name h _ _ => exact absurd rfl h
    · rw [if_neg h1]
      by_cases h2 : hasPrefix (py "--") a = true
      · rw [if_pos h2]
        obtain ⟨n, rfl⟩ := hasPrefix_iff.1 h2
        have hn : n ≠ [] := by rintro rfl; exact h1 rfl
        have key : ∀ os r, Means opts ((py "--" ++ n) :: argv) os r ↔
            ∃ o os', os = o :: os' ∧ Names opts (py "--" ++ n) o ∧ Means opts argv os' r := by
          intro os r
          constructor
          · intro h
            cases h with
            | stop => exact absurd rfl hn
            | plain h _ => rcases h with h | h <;> cases n <;> exact absurd h (by simp)
            | letters _ h _ =>
              cases h with
              | cons h _ =>
                obtain ⟨⟨c, hc, h2⟩, -⟩ := hg.2.2.2 _ h.1
                rw [h.2] at h2
                cases h2
                exact absurd rfl hc
            | name _ h1 h2 => exact ⟨_, _, rfl, h1, h2⟩
          · rintro ⟨o, os', rfl, h1, h2⟩
            exact .name hn h1 h2
        cases hp : processLong opts (py "--" ++ n) v with
        | error e =>
          constructor
          · intro h; cases h
          · rintro ⟨os, r, h, h3, -, -⟩
            obtain ⟨o, os', rfl, h4, -⟩ := (key _ _).1 h
            have := (long_ok hg _ v _).2 ⟨o, h4, h3 _ List.mem_cons_self, rfl⟩
            rw [hp] at this
            cases this
        | ok w =>
          obtain ⟨o, h3, h4, rfl⟩ := (long_ok hg _ v w).1 hp
          simp only
          rw [ih]
          constructor
          · rintro ⟨os, r, k1, k2, rfl, rfl⟩
            refine ⟨o :: os, r, (key _ _).2 ⟨o, os, rfl, h3, k1⟩, ?_, rfl, ?_⟩
            · intro p hp
              rcases List.mem_cons.1 hp with rfl | hp
              · exact h4
              · exact k2 p hp
            · rfl
          · rintro ⟨os, r, k1, k2, rfl, rfl⟩
            obtain ⟨p, os', rfl, k3, k4⟩ := (key _ _).1 k1
            refine ⟨os', r, k4, fun q hq => k2 q (List.mem_cons_of_mem _ hq), rfl, ?_⟩
            have := (long_ok hg _ v _).2 ⟨p, k3, k2 _ List.mem_cons_self, rfl⟩
            rw [hp] at this
            have := Except.ok.inj this
            rw [setAll_cons, this]
      · rw [if_neg h2]
        by_cases h3 : (hasPrefix (py "-") a && decide (a.length > 1)) = true
        · rw [if_pos h3]
          rw [Bool.and_eq_true, decide_eq_true_eq] at h3
          obtain ⟨cs, rfl⟩ := hasPrefix_iff.1 h3.1
          have hcs : cs ≠ [] := by rintro rfl; exact absurd h3.2 (by decide)
          have hd : ((py "-") ++ cs).drop 1 = cs := rfl
          rw [hd]
          have key : ∀ os r, Means opts ((py "-" ++ cs) :: argv) os r ↔
              ∃ os1 os2, os = os1 ++ os2 ∧ Letters opts cs os1 ∧ Means opts argv os2 r := by
            intro os r
            constructor
            · intro h
              cases h with
              | stop => exact absurd rfl h1
              | plain h _ =>
                rcases h with h | h
                · cases h; exact absurd rfl hcs
                · exact absurd rfl h
              | letters _ h1 h2 => exact ⟨_, _, rfl, h1, h2⟩
              | name _ _ _ => exact absurd (hasPrefix_iff.2 ⟨_, rfl⟩) h2
            · rintro ⟨os1, os2, rfl, k1, k2⟩
              exact .letters hcs k1 k2
          cases hp : processShort opts cs v with
          | error e =>
            constructor
            · intro h; cases h
            · rintro ⟨os, r, h, h3, -, -⟩
              obtain ⟨os1, os2, rfl, h4, -⟩ := (key _ _).1 h
              have := (short_ok hg _ v _).2
                ⟨os1, h4, fun q hq => h3 q (List.mem_append_left _ hq), rfl⟩
              rw [hp] at this
              cases this
          | ok w =>
            obtain ⟨os1, k1, k2, rfl⟩ := (short_ok hg _ v w).1 hp
            simp only
            rw [ih]
            constructor
            · rintro ⟨os, r, k3, k4, rfl, rfl⟩
              refine ⟨os1 ++ os, r, (key _ _).2 ⟨os1, os, rfl, k1, k3⟩, ?_, rfl, ?_⟩
              · intro p hp
                rcases List.mem_append.1 hp with hp | hp
                · exact k2 p hp
                · exact k4 p hp
              · rw [setAll_append]
            · rintro ⟨os, r, k3, k4, rfl, rfl⟩
              obtain ⟨os1', os2, rfl, k5, k6⟩ := (key _ _).1 k3
              refine ⟨os2, r, k6, fun q hq => k4 q (List.mem_append_right _ hq), rfl, ?_⟩
              have := (short_ok hg _ v _).2
                ⟨os1', k5, fun q hq => k4 q (List.mem_append_left _ hq), rfl⟩
              rw [hp] at this
              have := Except.ok.inj this
              rw [setAll_append, this]
        · rw [if_neg h3]
          rw [Bool.and_eq_true, decide_eq_true_eq] at h3
          have hplain : PlainArg a := by
            cases a with
            | nil => right; decide
            | cons c a =>
              by_cases hc : c = '-'
              · subst hc
                cases a with
                | nil => left; rfl
                | cons b a => exact absurd ⟨hasPrefix_iff.2 ⟨b :: a, rfl⟩, by simp⟩ h3
              · right; simpa using hc
          have key : ∀ os r, Means opts (a :: argv) os r ↔
              ∃ r', r = a :: r' ∧ Means opts argv os r' := by
            intro os r
            constructor
            · intro h
              cases h with
              | stop => exact absurd rfl h1
              | plain h k => exact ⟨_, rfl, k⟩
              | @letters cs _ _ _ _ hcs _ _ =>
                rcases hplain with h | h
                · cases h; exact absurd rfl hcs
                · exact absurd rfl h
              | name _ _ _ =>
                rcases hplain with h | h
                · cases h
                · exact absurd rfl h
            · rintro ⟨r', rfl, h⟩; exact .plain hplain h
          rw [ih]
          constructor
          · rintro ⟨os, r, k1, k2, rfl, rfl⟩
            exact ⟨os, a :: r, (key _ _).2 ⟨r, rfl, k1⟩, k2, by simp, rfl⟩
          · rintro ⟨os, r, k1, k2, rfl, rfl⟩
            obtain ⟨r', rfl, k3⟩ := (key _ _).1 k1
            exact ⟨os, r', k3, k2, by simp, rfl⟩

theorem dset_map {d : Dict Str Bool} (k : Str) (hk : k ∈ d.map (·.1)) (hd : (d.map (·.1)).Nodup) :
    dset d k true = d.map fun p => (p.1, p.2 || decide (p.1 = k)) := by
  induction d with
  | nil => cases hk
  | cons p d ih =>
    obtain ⟨k', b⟩ := p
    rw [List.map_cons, List.nodup_cons] at hd
    rw [dset, List.map_cons]
    by_cases e : k' = k
    · subst e
      simp only [if_true, decide_true, Bool.or_true]
      congr 1
      conv => lhs; rw [← List.map_id d]
      refine List.map_congr_left fun q hq => ?_
      have : q.1 ≠ k' := fun h => hd.1 (h ▸ List.mem_map.2 ⟨q, hq, rfl⟩)
      simp [this]
    · rw [if_neg e]
      have : k ∈ d.map (·.1) := by
        rcases List.mem_cons.1 hk with h | h
        · exact absurd h.symm e
        · exact h
      rw [ih this hd.2]
      simp [e]

theorem setAll_map (os : List Opt) (d : Dict Str Bool) (hd : (d.map (·.1)).Nodup)
    (hk : ∀ o ∈ os, ∀ k, o.dest = some k → k ∈ d.map (·.1)) :
    setAll d os = d.map fun p => (p.1, p.2 || decide (∃ o ∈ os, o.dest = some p.1)) := by
  induction os generalizing d with
  | nil => simp [setAll]
  | cons o os ih =>
    rw [setAll_cons]
    cases ho : o.dest with
    | none =>
      have e : setAll d [o] = d := by simp [setAll, ho]
      rw [e, ih d hd (fun p hp => hk p (List.mem_cons_of_mem _ hp))]
      refine List.map_congr_left fun q _ => ?_
      simp [ho]
    | some k =>
      have e : setAll d [o] = dset d k true := by simp [setAll, ho]
      have hkd := hk o List.mem_cons_self k ho
      rw [e, dset_map k hkd hd, ih]
      · rw [List.map_map]
        refine List.map_congr_left fun q _ => ?_
        simp only [Function.comp, List.mem_cons, exists_eq_or_imp, ho,
          Option.some.injEq, Bool.decide_or, Bool.or_assoc]
        congr 3
        exact decide_eq_decide.2 eq_comm
      · rw [List.map_map]; exact hd
      · intro p hp k' hk'
        rw [List.map_map]
        exact hk p (List.mem_cons_of_mem _ hp) k' hk'

theorem letters_mem {opts : List Opt} {cs : Str} {os : List Opt} (h : Letters opts cs os) :
    ∀ o ∈ os, o ∈ opts := by
  unfold Letters at h
  induction h with
  | nil => exact fun _ h => nomatch h
  | cons h _ ih =>
    intro o ho
    rcases List.mem_cons.1 ho with rfl | ho
    · exact h.1
    · exact ih o ho

theorem means_mem {opts : List Opt} {argv args : List Str} {os : List Opt}
    (h : Means opts argv os args) : ∀ o ∈ os, o ∈ opts := by
  induction h with
  | done => exact fun _ h => nomatch h
  | stop => exact fun _ h => nomatch h
  | plain _ _ ih => exact ih
  | letters _ h1 _ ih =>
    intro o ho
    rcases List.mem_append.1 ho with ho | ho
    · exact letters_mem h1 o ho
    · exact ih o ho
  | name _ h1 _ ih =>
    intro o ho
    rcases List.mem_cons.1 ho with rfl | ho
    · exact h1.1
    · exact ih o ho

theorem default_keys (opts : List Opt) :
    (defaultValues opts).map (·.1) = opts.filterMap (·.dest) := by
  unfold defaultValues
  rw [List.map_filterMap]
  congr 1
  funext o
  cases o.dest <;> rfl

theorem default_false {opts : List Opt} {p : Str × Bool} (h : p ∈ defaultValues opts) :
    p.2 = false := by
  unfold defaultValues at h
  obtain ⟨o, -, h⟩ := List.mem_filterMap.1 h
  cases ho : o.dest with
  | none => rw [ho] at h; cases h
  | some d => rw [ho] at h; cases h; rfl

theorem setAll_default {opts os : List Opt} (hg : GoodOpts opts) (h : ∀ o ∈ os, o ∈ opts) :
    setAll (defaultValues opts) os =
      (defaultValues opts).map fun p => (p.1, decide (∃ o ∈ os, o.dest = some p.1)) := by
  rw [setAll_map]
  · refine List.map_congr_left fun p hp => ?_
    rw [default_false hp, Bool.false_or]
  · rw [default_keys]; exact hg.2.2.1
  · intro o ho k hk
    rw [default_keys]
    exact List.mem_filterMap.2 ⟨o, h o ho, hk⟩

end H800
