import Verif.Lemmas.Options
import Verif.Props.Verbose
import Verif.Lemmas.Numeral
import Verif.Props.CrossTools

/-!
C153–C159: command lines.
-/

namespace H800
open Spec

/-! ### C153 -/

/-- The options of the tools can be told apart. -/
theorem C153_good : GoodOpts CHECK_INSTRUCTIONS_OPTS ∧ GoodOpts CHECK_SYMBOLS_OPTS ∧
    GoodOpts FIND_SYMBOLS_OPTS ∧ GoodOpts LIST_INSTRUCTIONS_OPTS ∧ GoodOpts VERBOSE_OPTS ∧
    GoodOpts PARSE_OPTS ∧ GoodOpts NO_OPTS := by
  have key : ∀ opts : List Opt, ((opts.map (·.short)).Nodup ∧ (opts.map (·.long)).Nodup ∧
      (opts.filterMap (·.dest)).Nodup ∧ ∀ o ∈ opts,
        (o.short = ['-', o.short.getLastD '-'] ∧ o.short.getLastD '-' ≠ '-') ∧
        (o.long = '-' :: '-' :: o.long.drop 2 ∧ o.long.drop 2 ≠ [] ∧ '=' ∉ o.long.drop 2)) →
      GoodOpts opts := by
    rintro opts ⟨h1, h2, h3, h4⟩
    refine ⟨h1, h2, h3, fun o ho => ?_⟩
    obtain ⟨⟨k1, k2⟩, k3, k4, k5⟩ := h4 o ho
    exact ⟨⟨_, k2, k1⟩, _, k4, k5, k3⟩
  refine ⟨key _ ?_, key _ ?_, key _ ?_, key _ ?_, key _ ?_, key _ ?_, key _ ?_⟩ <;> decide +kernel

/-- C153: `parse_args` accepts a command line exactly if it consists of options and arguments and does
not ask for help; then the attributes set are those of its options, and all others are False. -/
theorem C153_parse {opts : List Opt} (hg : GoodOpts opts) (argv args : List Str)
    (v : Dict Str Bool) :
    parseArgs opts argv = .ok (v, args) ↔
      ∃ os, Means opts argv os args ∧ (∀ o ∈ os, o.dest ≠ none) ∧
        v.map (·.1) = opts.filterMap (·.dest) ∧ ∀ d b, (d, b) ∈ v → (b = true ↔ Given os d) := by
  unfold parseArgs
  rw [args_ok hg]
  constructor
  · rintro ⟨os, r, h1, h2, rfl, rfl⟩
    refine ⟨os, h1, h2, ?_, ?_⟩
    · rw [setAll_default hg (means_mem h1), List.map_map, ← default_keys]
      rfl
    · intro d b h
      rw [setAll_default hg (means_mem h1)] at h
      obtain ⟨p, -, h⟩ := List.mem_map.1 h
      cases h
      rw [decide_eq_true_eq]
      rfl
  · rintro ⟨os, h1, h2, h3, h4⟩
    refine ⟨os, args, h1, h2, rfl, ?_⟩
    rw [setAll_default hg (means_mem h1)]
    rw [← default_keys] at h3
    generalize defaultValues opts = w at h3
    clear h1 h2
    induction v generalizing w with
    | nil => cases w with
      | nil => rfl
      | cons => cases h3
    | cons p v ih =>
      cases w with
      | nil => cases h3
      | cons q w =>
        rw [List.map_cons, List.map_cons, List.cons.injEq] at h3
        rw [List.map_cons, ih (fun d b h => h4 d b (List.mem_cons_of_mem _ h)) w h3.2]
        congr 1
        obtain ⟨d, b⟩ := p
        have := h4 d b List.mem_cons_self
        rw [← h3.1]
        refine Prod.ext rfl ?_
        rw [Bool.eq_iff_iff, this, decide_eq_true_eq]
        rfl

theorem letters_unique {opts : List Opt} (hg : GoodOpts opts) {cs : Str} {os os' : List Opt}
    (h : Letters opts cs os) (h' : Letters opts cs os') : os = os' := by
  unfold Letters at h h'
  induction h generalizing os' with
  | nil => cases h'; rfl
  | cons h1 _ ih =>
    cases h' with
    | cons h2 h3 => rw [ih h3, nodup_map_inj hg.1 h1.1 h2.1 (h1.2.trans h2.2.symm)]

theorem names_unique {opts : List Opt} (hg : GoodOpts opts) {n : Str} {o o' : Opt}
    (h : Names opts n o) (h' : Names opts n o') : o = o' := by
  have h1 := (abbrev_ok hg n _).2 ⟨o, h, rfl⟩
  rw [(abbrev_ok hg n _).2 ⟨o', h', rfl⟩] at h1
  exact nodup_map_inj hg.2.1 h.1 h'.1 (Except.ok.inj h1).symm

theorem letters_dash {opts : List Opt} (hg : GoodOpts opts) {cs : Str} {os : List Opt}
    (h : Letters opts ('-' :: cs) os) : False := by
  cases h with
  | cons h _ =>
    obtain ⟨⟨c, hc, h2⟩, -⟩ := hg.2.2.2 _ h.1
    rw [h.2] at h2
    cases h2
    exact hc rfl

/-- A command line has one meaning. -/
theorem C153_unique {opts : List Opt} (hg : GoodOpts opts) {argv args args' : List Str}
    {os os' : List Opt} (h : Means opts argv os args) (h' : Means opts argv os' args') :
    os = os' ∧ args = args' := by
  induction h generalizing os' args' with
  | done => cases h'; exact ⟨rfl, rfl⟩
  | stop rest =>
    cases h' with
    | stop => exact ⟨rfl, rfl⟩
    | plain h _ => rcases h with h | h <;> exact absurd h (by decide)
    | letters _ h _ => exact (letters_dash hg h).elim
    | name h _ _ => exact absurd rfl h
  | plain h1 _ ih =>
    cases h' with
    | stop => rcases h1 with h | h <;> exact absurd h (by decide)
    | plain h2 h3 => obtain ⟨rfl, rfl⟩ := ih h3; exact ⟨rfl, rfl⟩
    | letters h2 _ _ =>
      rcases h1 with h | h
      · cases h; exact absurd rfl h2
      · exact absurd rfl h
    | name h2 _ _ =>
      rcases h1 with h | h
      · cases h
      · exact absurd rfl h
  | letters h1 h2 _ ih =>
    cases h' with
    | stop => exact (letters_dash hg h2).elim
    | plain h3 _ =>
      rcases h3 with h | h
      · cases h; exact absurd rfl h1
      · exact absurd rfl h
    | letters _ h4 h5 =>
      obtain ⟨rfl, rfl⟩ := ih h5
      rw [letters_unique hg h2 h4]
      exact ⟨rfl, rfl⟩
    | name _ _ _ => exact (letters_dash hg h2).elim
  | name h1 h2 _ ih =>
    cases h' with
    | stop => exact absurd rfl h1
    | plain h3 _ =>
      rcases h3 with h | h
      · cases h
      · exact absurd rfl h
    | letters _ h4 _ => exact (letters_dash hg h4).elim
    | name _ h4 h5 =>
      obtain ⟨rfl, rfl⟩ := ih h5
      rw [names_unique hg h2 h4]
      exact ⟨rfl, rfl⟩

theorem short_help {opts : List Opt} (hg : GoodOpts opts) {cs : Str} {os : List Opt}
    (h : Letters opts cs os) (v : Dict Str Bool) :
    (∃ o ∈ os, o.dest = none) → processShort opts cs v = .error .help := by
  unfold Letters at h
  induction h generalizing v with
  | nil => rintro ⟨o, ho, -⟩; cases ho
  | @cons c o cs os h1 _ ih =>
    rintro ⟨p, hp, hd⟩
    rw [processShort, (find_opt hg.1 _ o).2 h1]
    simp only
    cases ho : o.dest with
    | none => simp [Opt.process, ho]
    | some d =>
      have e : o.process v = .ok (dset v d true) := by simp [Opt.process, ho]
      rw [e]
      refine ih _ ⟨p, ?_, hd⟩
      rcases List.mem_cons.1 hp with rfl | hp
      · rw [ho] at hd; cases hd
      · exact hp

theorem long_help {opts : List Opt} (hg : GoodOpts opts) {n : Str} {o : Opt} (h : Names opts n o)
    (v : Dict Str Bool) (hd : o.dest = none) : processLong opts n v = .error .help := by
  unfold processLong
  have hc : ¬ n.contains '=' = true := fun h' => names_noeq hg h (List.contains_iff_mem.1 h')
  simp only
  rw [if_neg hc, (abbrev_ok hg n _).2 ⟨o, h, rfl⟩]
  simp only
  rw [(find_opt hg.2.1 _ o).2 ⟨h.1, rfl⟩]
  simp only
  rw [if_neg hc]
  simp [Opt.process, hd]

/-- C153: a command line that consists of options and arguments and asks for help shows it. -/
theorem C153_help {opts : List Opt} (hg : GoodOpts opts) {argv args : List Str} {os : List Opt}
    (h : Means opts argv os args) (hh : ∃ o ∈ os, o.dest = none) :
    parseArgs opts argv = .error .help := by
  unfold parseArgs
  have key : ∀ largs v, processArgs opts argv largs v = .error .help := by
    induction h with
    | done => obtain ⟨o, ho, -⟩ := hh; cases ho
    | stop => obtain ⟨o, ho, -⟩ := hh; cases ho
    | @plain a l r os h1 _ ih =>
      intro largs v
      rw [processArgs, if_neg, if_neg, if_neg, ih hh]
      · intro h
        rw [Bool.and_eq_true, decide_eq_true_eq] at h
        obtain ⟨cs, rfl⟩ := hasPrefix_iff.1 h.1
        rcases h1 with h1 | h1
        · cases h1; exact absurd h.2 (by decide)
        · exact h1 rfl
      · intro h
        obtain ⟨cs, rfl⟩ := hasPrefix_iff.1 h
        rcases h1 with h1 | h1
        · cases h1
        · exact h1 rfl
      · rintro rfl
        rcases h1 with h | h <;> exact absurd h (by decide)
    | @letters cs l r os os' h1 h2 h3 ih =>
      intro largs v
      rw [processArgs, if_neg, if_neg, if_pos]
      · have e : ('-' :: cs).drop 1 = cs := rfl
        rw [e]
        by_cases hx : ∃ o ∈ os, o.dest = none
        · rw [short_help hg h2 v hx]
        · rw [(short_ok hg cs v _).2 ⟨os, h2, fun o ho hd => hx ⟨o, ho, hd⟩, rfl⟩]
          simp only
          refine ih ?_ _ _
          obtain ⟨o, ho, hd⟩ := hh
          rcases List.mem_append.1 ho with ho | ho
          · exact absurd ⟨o, ho, hd⟩ hx
          · exact ⟨o, ho, hd⟩
      · rw [Bool.and_eq_true, decide_eq_true_eq]
        refine ⟨hasPrefix_iff.2 ⟨cs, rfl⟩, ?_⟩
        have := List.length_pos_iff.2 h1
        simp only [List.length_cons]
        omega
      · intro h
        obtain ⟨n, hn⟩ := hasPrefix_iff.1 h
        cases hn
        exact letters_dash hg h2
      · intro h
        cases h
        exact letters_dash hg h2
    | @name n l r o os h1 h2 h3 ih =>
      intro largs v
      have e : hasPrefix (py "--") ('-' :: '-' :: n) = true := hasPrefix_iff.2 ⟨n, rfl⟩
      rw [processArgs, if_neg, if_pos e]
      · by_cases hx : o.dest = none
        · rw [long_help hg h2 v hx]
        · rw [(long_ok hg _ v _).2 ⟨o, h2, hx, rfl⟩]
          simp only
          refine ih ?_ _ _
          obtain ⟨p, hp, hd⟩ := hh
          rcases List.mem_cons.1 hp with rfl | hp
          · exact absurd hd hx
          · exact ⟨p, hp, hd⟩
      · intro h
        cases h
        exact h1 rfl
  exact key _ _

/-- C153 on a command line with a cluster, an abbreviated name, `-` and `--`. -/
example : parseArgs FIND_SYMBOLS_OPTS
      [py "-bv", py "SYM", py "--fu", py "-", py "--", py "-x", py "--"] =
    .ok ([(py "begin", true), (py "details", false), (py "end", false), (py "fuzzy", true),
      (py "verbose", true), (py "exact", false)], [py "SYM", py "-", py "-x", py "--"]) ∧
    parseArgs FIND_SYMBOLS_OPTS [py "--e", py "SYM"] = .error (.ambiguous (py "--e")) ∧
    parseArgs FIND_SYMBOLS_OPTS [py "--end=1"] = .error (.noValue (py "--end")) ∧
    parseArgs FIND_SYMBOLS_OPTS [py "-bq"] = .error (.noSuch (py "-q")) ∧
    parseArgs FIND_SYMBOLS_OPTS [py "-bhq"] = .error .help := by
  refine ⟨?_, ?_, ?_, ?_, ?_⟩ <;> decide +kernel

/-! ### C154 -/

theorem means_append {opts : List Opt} {l : List Str} (hl : ['-', '-'] ∉ l) (m : List Str)
    (os : List Opt) (args : List Str) :
    Means opts (l ++ m) os args ↔ ∃ os1 r1 os2 r2, Means opts l os1 r1 ∧ Means opts m os2 r2 ∧
      os = os1 ++ os2 ∧ args = r1 ++ r2 := by
  induction l generalizing os args with
  | nil =>
    constructor
    · intro h; exact ⟨[], [], os, args, .done, h, rfl, rfl⟩
    · rintro ⟨os1, r1, os2, r2, h1, h2, rfl, rfl⟩
      cases h1
      exact h2
  | cons a l ih =>
    rw [List.mem_cons, not_or] at hl
    rw [List.cons_append]
    constructor
    · intro h
      cases h with
      | stop => exact absurd rfl hl.1
      | plain h1 h2 =>
        obtain ⟨os1, r1, os2, r2, k1, k2, rfl, rfl⟩ := (ih hl.2 _ _).1 h2
        exact ⟨os1, a :: r1, os2, r2, .plain h1 k1, k2, rfl, rfl⟩
      | letters h1 h2 h3 =>
        obtain ⟨os1, r1, os2, r2, k1, k2, rfl, rfl⟩ := (ih hl.2 _ _).1 h3
        exact ⟨_, r1, os2, r2, .letters h1 h2 k1, k2, by simp, rfl⟩
      | name h1 h2 h3 =>
        obtain ⟨os1, r1, os2, r2, k1, k2, rfl, rfl⟩ := (ih hl.2 _ _).1 h3
        exact ⟨_, r1, os2, r2, .name h1 h2 k1, k2, by simp, rfl⟩
    · rintro ⟨os1, r1, os2, r2, h, k2, rfl, rfl⟩
      cases h with
      | stop => exact absurd rfl hl.1
      | plain h1 h2 => exact .plain h1 ((ih hl.2 _ _).2 ⟨_, _, _, _, h2, k2, rfl, rfl⟩)
      | letters h1 h2 h3 =>
        rw [List.append_assoc]
        exact .letters h1 h2 ((ih hl.2 _ _).2 ⟨_, _, _, _, h3, k2, rfl, rfl⟩)
      | name h1 h2 h3 => exact .name h1 h2 ((ih hl.2 _ _).2 ⟨_, _, _, _, h3, k2, rfl, rfl⟩)

/-- An option may be put anywhere before the first `--`. -/
theorem means_anywhere {opts : List Opt} {l m args : List Str} {w : Str} {ow os : List Opt}
    (hl : ['-', '-'] ∉ l) (hw : Means opts [w] ow []) (hw' : w ≠ ['-', '-'])
    (h : Means opts (l ++ m) os args) :
    ∃ os', Means opts (l ++ w :: m) os' args ∧ ∀ o, o ∈ os' ↔ o ∈ ow ∨ o ∈ os := by
  obtain ⟨os1, r1, os2, r2, h1, h2, rfl, rfl⟩ := (means_append hl m os args).1 h
  refine ⟨os1 ++ (ow ++ os2), ?_, ?_⟩
  · refine (means_append hl _ _ _).2 ⟨os1, r1, ow ++ os2, r2, h1, ?_, rfl, rfl⟩
    have : Means opts ([w] ++ m) (ow ++ os2) r2 :=
      (means_append (by simpa using hw'.symm) _ _ _).2 ⟨ow, [], os2, r2, hw, h2, rfl, rfl⟩
    exact this
  · intro o
    simp only [List.mem_append]
    tauto

/-- Options that are given together with one dash may be given one by one. -/
theorem means_cluster {opts : List Opt} {cs : Str} (hc : cs ≠ [])
    (hd : '-' ∉ cs) (l : List Str) (os : List Opt) (args : List Str) :
    Means opts (('-' :: cs) :: l) os args ↔
      Means opts (cs.map (fun c => ['-', c]) ++ l) os args := by
  have key : ∀ cs : Str, '-' ∉ cs → ∀ os1 r1,
      Means opts (cs.map fun c => ['-', c]) os1 r1 ↔ r1 = [] ∧ Letters opts cs os1 := by
    intro cs hd os1 r1
    induction cs generalizing os1 r1 with
    | nil =>
      constructor
      · intro h; cases h; exact ⟨rfl, .nil⟩
      · rintro ⟨rfl, h⟩; cases h; exact .done
    | cons c cs ih =>
      rw [List.mem_cons, not_or] at hd
      rw [List.map_cons]
      constructor
      · intro h
        cases h with
        | stop => exact absurd rfl hd.1
        | plain h _ =>
          rcases h with h | h
          · cases h
          · exact absurd rfl h
        | letters _ h1 h2 =>
          obtain ⟨rfl, h3⟩ := (ih hd.2 _ _).1 h2
          cases h1 with
          | cons h1 h4 => cases h4; exact ⟨rfl, .cons h1 h3⟩
        | name _ _ _ => exact absurd rfl hd.1
      · rintro ⟨rfl, h⟩
        cases h with
        | @cons _ o _ os h1 h2 =>
          have := Means.letters (opts := opts) (cs := [c]) (by simp) (.cons h1 .nil)
            ((ih hd.2 os []).2 ⟨rfl, h2⟩)
          exact this
  have hn : ['-', '-'] ∉ cs.map (fun c => ['-', c]) := by
    intro h
    obtain ⟨c, h1, h2⟩ := List.mem_map.1 h
    cases h2
    exact hd h1
  rw [means_append hn]
  constructor
  · intro h
    cases h with
    | stop => exact absurd (List.mem_singleton.2 rfl) hd
    | plain h _ =>
      rcases h with h | h
      · cases h; exact absurd rfl hc
      · exact absurd rfl h
    | letters _ h1 h2 => exact ⟨_, [], _, _, (key cs hd _ _).2 ⟨rfl, h1⟩, h2, rfl, rfl⟩
    | name _ _ _ => exact absurd List.mem_cons_self hd
  · rintro ⟨os1, r1, os2, r2, h1, h2, rfl, rfl⟩
    obtain ⟨rfl, h3⟩ := (key cs hd _ _).1 h1
    exact .letters hc h3 h2

/-- Every choice of options with any arguments whatever can be given. -/
theorem means_reach {opts : List Opt} (hg : GoodOpts opts) (os : List Opt) (h : ∀ o ∈ os, o ∈ opts)
    (args : List Str) :
    Means opts (os.map (·.short) ++ ['-', '-'] :: args) os args ∧
    Means opts (os.map (·.long) ++ ['-', '-'] :: args) os args := by
  induction os with
  | nil => exact ⟨.stop args, .stop args⟩
  | cons o os ih =>
    obtain ⟨h1, h2⟩ := ih fun p hp => h p (List.mem_cons_of_mem _ hp)
    have ho := h o List.mem_cons_self
    obtain ⟨⟨c, hc, k1⟩, n, hn, -, k2⟩ := hg.2.2.2 o ho
    constructor
    · have := Means.letters (opts := opts) (cs := [c]) (by simp) (.cons ⟨ho, k1⟩ .nil) h1
      rw [List.map_cons, k1]
      exact this
    · have := Means.name (opts := opts) hn (o := o) ⟨ho, .inl k2⟩ h2
      rw [List.map_cons, k2]
      exact this

/-- Arguments that do not look like options may be given as they are. -/
theorem means_plain {opts : List Opt} {args : List Str} (h : ∀ a ∈ args, PlainArg a) :
    Means opts args [] args := by
  induction args with
  | nil => exact .done
  | cons a args ih =>
    exact .plain (h a List.mem_cons_self) (ih fun b hb => h b (List.mem_cons_of_mem _ hb))

/-- Without `--`, no argument that looks like an option can be given. -/
theorem means_dash {opts : List Opt} {argv args : List Str} {os : List Opt}
    (h : Means opts argv os args) (hn : ['-', '-'] ∉ argv) : ∀ a ∈ args, PlainArg a ∧ a ∈ argv := by
  induction h with
  | done => exact fun _ h => nomatch h
  | stop => exact absurd List.mem_cons_self hn
  | plain h1 _ ih =>
    intro a ha
    rcases List.mem_cons.1 ha with rfl | ha
    · exact ⟨h1, List.mem_cons_self⟩
    · obtain ⟨k1, k2⟩ := ih (fun h => hn (List.mem_cons_of_mem _ h)) a ha
      exact ⟨k1, List.mem_cons_of_mem _ k2⟩
  | letters _ _ _ ih =>
    intro a ha
    obtain ⟨k1, k2⟩ := ih (fun h => hn (List.mem_cons_of_mem _ h)) a ha
    exact ⟨k1, List.mem_cons_of_mem _ k2⟩
  | name _ _ _ ih =>
    intro a ha
    obtain ⟨k1, k2⟩ := ih (fun h => hn (List.mem_cons_of_mem _ h)) a ha
    exact ⟨k1, List.mem_cons_of_mem _ k2⟩

/-! ### C155 -/

theorem mem_of_dget {d : Dict Str Bool} {k : Str} {b : Bool} (h : dget d k = some b) :
    (k, b) ∈ d := by
  induction d with
  | nil => cases h
  | cons p d ih =>
    obtain ⟨k', b'⟩ := p
    rw [dget] at h
    by_cases e : k' = k
    · subst e
      rw [if_pos rfl] at h
      cases h
      exact List.mem_cons_self
    · rw [if_neg e] at h
      exact List.mem_cons_of_mem _ (ih h)

open Classical in
/-- What the tools see of a command line. -/
theorem means_values {opts : List Opt} (hg : GoodOpts opts) {argv args : List Str} {os : List Opt}
    (h : Means opts argv os args) :
    ((∃ o ∈ os, o.dest = none) ∧ parseArgs opts argv = .error .help) ∨
    ((¬ ∃ o ∈ os, o.dest = none) ∧ ∃ v, parseArgs opts argv = .ok (v, args) ∧
      ∀ d ∈ opts.filterMap (·.dest), optValue v d = decide (Given os d)) := by
  by_cases hh : ∃ o ∈ os, o.dest = none
  · exact .inl ⟨hh, C153_help hg h hh⟩
  · right
    have hp : parseArgs opts argv = .ok (setAll (defaultValues opts) os, args) :=
      (args_ok hg _ _ _ _ _).2 ⟨os, args, h, fun o ho hd => hh ⟨o, ho, hd⟩, rfl, rfl⟩
    refine ⟨hh, _, hp, fun d hd => ?_⟩
    obtain ⟨os', h1, -, h3, h4⟩ := (C153_parse hg argv args _).1 hp
    obtain ⟨rfl, -⟩ := C153_unique hg h1 h
    unfold optValue
    have : (dget (setAll (defaultValues opts) os') d).isSome := by
      rw [dget_isSome, h3]
      exact hd
    obtain ⟨b, hb⟩ := Option.isSome_iff_exists.1 this
    rw [hb]
    have := h4 d b (mem_of_dget hb)
    simp only
    rw [Bool.eq_iff_iff, this, decide_eq_true_eq]

/-- Words before the first `--` are dealt with one after the other. -/
theorem processArgs_append (opts : List Opt) {l : List Str} (hl : ['-', '-'] ∉ l) (m largs : List Str)
    (v : Dict Str Bool) :
    processArgs opts (l ++ m) largs v =
      match processArgs opts l largs v with
      | .error e => .error e
      | .ok (v', largs') => processArgs opts m largs' v' := by
  induction l generalizing largs v with
  | nil => simp only [List.nil_append, processArgs]
  | cons a l ih =>
    rw [List.mem_cons, not_or] at hl
    simp only [List.cons_append, processArgs]
    have ha : ¬ a = ['-', '-'] := fun e => hl.1 e.symm
    simp only [if_neg ha]
    by_cases h1 : hasPrefix ['-', '-'] a = true
    · simp only [if_pos h1]
      cases processLong opts a v with
      | error e => rfl
      | ok v' => exact ih hl.2 _ _
    · simp only [if_neg h1]
      by_cases h2 : (hasPrefix ['-'] a && decide (a.length > 1)) = true
      · simp only [if_pos h2]
        cases processShort opts (a.drop 1) v with
        | error e => rfl
        | ok v' => exact ih hl.2 _ _
      · simp only [if_neg h2]
        exact ih hl.2 _ _

theorem processShort_each (opts : List Opt) (cs : Str) (hd : '-' ∉ cs) (m largs : List Str)
    (v : Dict Str Bool) :
    processArgs opts (cs.map (fun c => ['-', c]) ++ m) largs v =
      match processShort opts cs v with
      | .error e => .error e
      | .ok v' => processArgs opts m largs v' := by
  induction cs generalizing v with
  | nil => simp only [List.map_nil, List.nil_append, processShort]
  | cons c cs ih =>
    rw [List.mem_cons, not_or] at hd
    have hc : c ≠ '-' := fun e => hd.1 e.symm
    simp only [List.map_cons, List.cons_append, processArgs]
    rw [if_neg (by simp [hc]), if_neg (by
      rw [hasPrefix_prefix]
      rintro ⟨t, ht⟩
      simp only [List.cons_append, List.cons.injEq] at ht
      exact hd.1 ht.2.1), if_pos (by
      rw [Bool.and_eq_true, hasPrefix_prefix]
      exact ⟨⟨[c], rfl⟩, by simp⟩)]
    simp only [List.drop_succ_cons, List.drop_zero, processShort]
    cases opts.find? (fun o => o.short = ['-', c]) with
    | none => rfl
    | some o =>
      simp only
      cases o.process v with
      | error e => rfl
      | ok v' => exact ih hd.2 v'

/-- C154: an option may be put anywhere before the first `--`: this adds it and changes nothing
else. -/
theorem C154_anywhere {opts : List Opt} (hg : GoodOpts opts) {l m args : List Str} {w : Str}
    {v vw : Dict Str Bool} (hl : ['-', '-'] ∉ l) (hw' : w ≠ ['-', '-'])
    (hw : parseArgs opts [w] = .ok (vw, [])) (h : parseArgs opts (l ++ m) = .ok (v, args)) :
    ∃ v', parseArgs opts (l ++ w :: m) = .ok (v', args) ∧ v'.map (·.1) = v.map (·.1) ∧
      ∀ d, (d, true) ∈ v' ↔ (d, true) ∈ vw ∨ (d, true) ∈ v := by
  obtain ⟨ow, w1, w2, w3, w4⟩ := (C153_parse hg _ _ _).1 hw
  obtain ⟨os, h1, h2, h3, h4⟩ := (C153_parse hg _ _ _).1 h
  obtain ⟨os', k1, k2⟩ := means_anywhere hl w1 hw' h1
  have hk : ∀ o ∈ os', o.dest ≠ none := by
    intro o ho
    rcases (k2 o).1 ho with ho | ho
    · exact w2 o ho
    · exact h2 o ho
  rcases means_values hg k1 with ⟨⟨o, ho, he⟩, -⟩ | ⟨-, v', hv', -⟩
  · exact absurd he (hk o ho)
  obtain ⟨os'', j1, j2, j3, j4⟩ := (C153_parse hg _ _ _).1 hv'
  obtain ⟨rfl, -⟩ := C153_unique hg k1 j1
  have hmem : ∀ {v : Dict Str Bool} {os : List Opt}, v.map (·.1) = opts.filterMap (·.dest) →
      (∀ d b, (d, b) ∈ v → (b = true ↔ Given os d)) → ∀ d, (d, true) ∈ v ↔
        d ∈ opts.filterMap (·.dest) ∧ Given os d := by
    intro v os e hv d
    constructor
    · intro h
      exact ⟨e ▸ List.mem_map.2 ⟨_, h, rfl⟩, (hv d true h).1 rfl⟩
    · rintro ⟨h, hgv⟩
      rw [← e] at h
      obtain ⟨⟨d', b⟩, hb, rfl⟩ := List.mem_map.1 h
      have := (hv d' b hb).2 hgv
      subst this
      exact hb
  refine ⟨v', hv', j3.trans h3.symm, fun d => ?_⟩
  rw [hmem j3 j4, hmem w3 w4, hmem h3 h4, ← and_or_left]
  refine and_congr Iff.rfl ?_
  constructor
  · rintro ⟨o, ho, e⟩
    rcases (k2 o).1 ho with ho | ho
    · exact .inl ⟨o, ho, e⟩
    · exact .inr ⟨o, ho, e⟩
  · rintro (⟨o, ho, e⟩ | ⟨o, ho, e⟩)
    · exact ⟨o, (k2 o).2 (.inl ho), e⟩
    · exact ⟨o, (k2 o).2 (.inr ho), e⟩

/-- C154: options that are given together with one dash may be given one by one; what is wrong with
them is found in the same way. -/
theorem C154_cluster (opts : List Opt) {cs : Str} (hc : cs ≠ []) (hd : '-' ∉ cs) {l : List Str}
    (hl : ['-', '-'] ∉ l) (m : List Str) :
    parseArgs opts (l ++ ('-' :: cs) :: m) = parseArgs opts (l ++ (cs.map (fun c => ['-', c]) ++ m)) := by
  unfold parseArgs
  rw [processArgs_append opts hl, processArgs_append opts hl]
  cases processArgs opts l [] (defaultValues opts) with
  | error e => rfl
  | ok r =>
    obtain ⟨v, largs⟩ := r
    simp only
    rw [processShort_each opts cs hd]
    simp only [processArgs]
    obtain ⟨c, cs, rfl⟩ : ∃ c cs', cs = c :: cs' := by
      cases cs with
      | nil => exact absurd rfl hc
      | cons c cs => exact ⟨c, cs, rfl⟩
    rw [List.mem_cons, not_or] at hd
    rw [if_neg (by
      intro e
      simp only [List.cons.injEq] at e
      exact hd.1 e.2.1.symm), if_neg (by
      rw [hasPrefix_prefix]
      rintro ⟨t, ht⟩
      simp only [List.cons_append, List.cons.injEq] at ht
      exact hd.1 ht.2.1), if_pos (by
      rw [Bool.and_eq_true, hasPrefix_prefix]
      exact ⟨⟨c :: cs, rfl⟩, by simp⟩)]
    rfl

/-- C154: every choice of options other than help with any arguments whatever can be given, with letters
or with names: the arguments stand after `--`. -/
theorem C154_reach {opts : List Opt} (hg : GoodOpts opts) (os : List Opt)
    (h : ∀ o ∈ os, o ∈ opts ∧ o.dest ≠ none) (args : List Str) :
    ∃ v, parseArgs opts (os.map (·.short) ++ ['-', '-'] :: args) = .ok (v, args) ∧
      parseArgs opts (os.map (·.long) ++ ['-', '-'] :: args) = .ok (v, args) ∧
      v.map (·.1) = opts.filterMap (·.dest) ∧ ∀ d b, (d, b) ∈ v → (b = true ↔ Given os d) := by
  obtain ⟨h1, h2⟩ := means_reach hg os (fun o ho => (h o ho).1) args
  rcases means_values hg h1 with ⟨⟨o, ho, he⟩, -⟩ | ⟨-, v, hv, -⟩
  · exact absurd he (h o ho).2
  obtain ⟨os', j1, j2, j3, j4⟩ := (C153_parse hg _ _ _).1 hv
  obtain ⟨rfl, -⟩ := C153_unique hg h1 j1
  exact ⟨v, hv, (C153_parse hg _ _ _).2 ⟨os, h2, j2, j3, j4⟩, j3, j4⟩

/-- C154: without `--`, no argument that looks like an option can be given. -/
theorem C154_dash {opts : List Opt} (hg : GoodOpts opts) {argv args : List Str} {v : Dict Str Bool}
    (h : parseArgs opts argv = .ok (v, args)) (hn : ['-', '-'] ∉ argv) :
    ∀ a ∈ args, PlainArg a ∧ a ∈ argv := by
  obtain ⟨os, h1, -⟩ := (C153_parse hg _ _ _).1 h
  exact means_dash h1 hn

/-- C155: two command lines with the same options and the same arguments are the same to
`parse_args`, whatever their order and spelling. -/
theorem C155_same {opts : List Opt} (hg : GoodOpts opts) {argv argv' args : List Str}
    {os os' : List Opt} (h : Means opts argv os args) (h' : Means opts argv' os' args)
    (hs : ∀ o, o ∈ os ↔ o ∈ os') : parseArgs opts argv = parseArgs opts argv' := by
  have e : (∃ o ∈ os, o.dest = none) ↔ ∃ o ∈ os', o.dest = none := by simp only [hs]
  by_cases hh : ∃ o ∈ os, o.dest = none
  · rw [C153_help hg h hh, C153_help hg h' (e.1 hh)]
  · have h1 : parseArgs opts argv = .ok (setAll (defaultValues opts) os, args) :=
      (args_ok hg _ _ _ _ _).2 ⟨os, args, h, fun o ho hd => hh ⟨o, ho, hd⟩, rfl, rfl⟩
    have h2 : parseArgs opts argv' = .ok (setAll (defaultValues opts) os', args) :=
      (args_ok hg _ _ _ _ _).2 ⟨os', args, h', fun o ho hd => hh (e.2 ⟨o, ho, hd⟩), rfl, rfl⟩
    rw [h1, h2, setAll_default hg (means_mem h), setAll_default hg (means_mem h')]
    simp only [hs]

/-- C155: the same for every tool. -/
theorem C155_tools (upper : Str → Str) (extract : Str → List Str → Nat → List Str) (fs : FileSystem)
    (fuel : Nat) (argv argv' args : List Str) (os os' : List Opt) (hs : ∀ o, o ∈ os ↔ o ∈ os') :
    (Means CHECK_INSTRUCTIONS_OPTS argv os args → Means CHECK_INSTRUCTIONS_OPTS argv' os' args →
      checkInstructionsCmd fs fuel argv = checkInstructionsCmd fs fuel argv') ∧
    (Means LIST_INSTRUCTIONS_OPTS argv os args → Means LIST_INSTRUCTIONS_OPTS argv' os' args →
      listInstructionsCmd fs fuel argv = listInstructionsCmd fs fuel argv') ∧
    (Means VERBOSE_OPTS argv os args → Means VERBOSE_OPTS argv' os' args →
      listingCmd fs fuel argv = listingCmd fs fuel argv' ∧
      listSymbolsCmd upper fs fuel argv = listSymbolsCmd upper fs fuel argv') ∧
    (Means CHECK_SYMBOLS_OPTS argv os args → Means CHECK_SYMBOLS_OPTS argv' os' args →
      checkSymbolsCmd upper extract fs fuel argv = checkSymbolsCmd upper extract fs fuel argv') ∧
    (Means FIND_SYMBOLS_OPTS argv os args → Means FIND_SYMBOLS_OPTS argv' os' args →
      findSymbolsCmd upper extract fs fuel argv = findSymbolsCmd upper extract fs fuel argv') ∧
    (Means PARSE_OPTS argv os args → Means PARSE_OPTS argv' os' args →
      parseCmd upper fs fuel argv = parseCmd upper fs fuel argv') ∧
    (Means NO_OPTS argv os args → Means NO_OPTS argv' os' args →
      genlinesCmd argv = genlinesCmd argv' ∧ genpagesCmd fs fuel argv = genpagesCmd fs fuel argv') := by
  obtain ⟨g1, g2, g3, g4, g5, g6, g7⟩ := C153_good
  refine ⟨fun h h' => ?_, fun h h' => ?_, fun h h' => ⟨?_, ?_⟩, fun h h' => ?_, fun h h' => ?_,
    fun h h' => ?_, fun h h' => ⟨?_, ?_⟩⟩
  · unfold checkInstructionsCmd; rw [C155_same g1 h h' hs]
  · unfold listInstructionsCmd; rw [C155_same g4 h h' hs]
  · unfold listingCmd; rw [C155_same g5 h h' hs]
  · unfold listSymbolsCmd; rw [C155_same g5 h h' hs]
  · unfold checkSymbolsCmd; rw [C155_same g2 h h' hs]
  · unfold findSymbolsCmd; rw [C155_same g3 h h' hs]
  · unfold parseCmd; rw [C155_same g6 h h' hs]
  · unfold genlinesCmd; rw [C155_same g7 h h' hs]
  · unfold genpagesCmd; rw [C155_same g7 h h' hs]

/-- C154, C155 on command lines of check-instructions. -/
example : checkInstructionsCmd verboseFs 10 [py "-cv", py "A.arg", py "--all"] =
      checkInstructionsCmd verboseFs 10 [py "--a", py "-v", py "--count", py "--", py "A.arg"] ∧
    Means CHECK_INSTRUCTIONS_OPTS [py "-cv", py "A.arg", py "--all"]
      [⟨py "-c", py "--count", some (py "count")⟩, ⟨py "-v", py "--verbose", some (py "verbose")⟩,
       ⟨py "-a", py "--all", some (py "all")⟩] [py "A.arg"] := by
  refine ⟨by decide +kernel, ?_⟩
  refine .letters (cs := py "cv") (os := [_, _]) (by decide)
    (.cons ⟨by decide, rfl⟩ (.cons ⟨by decide, rfl⟩ .nil)) ?_
  refine .plain (.inr (by decide)) (.name (n := py "all") (by decide) ⟨by decide, .inl rfl⟩ .done)

/-- C154 on command lines of check-instructions: `-cv` before, between and one by one. -/
example : parseArgs CHECK_INSTRUCTIONS_OPTS [py "-v"] =
      .ok (dset (defaultValues CHECK_INSTRUCTIONS_OPTS) (py "verbose") true, []) ∧
    parseArgs CHECK_INSTRUCTIONS_OPTS [py "A", py "-cv", py "B"] =
      parseArgs CHECK_INSTRUCTIONS_OPTS [py "A", py "-c", py "-v", py "B"] ∧
    parseArgs CHECK_INSTRUCTIONS_OPTS [py "A", py "-cz", py "B"] = .error (.noSuch (py "-z")) ∧
    (parseArgs CHECK_INSTRUCTIONS_OPTS [py "-c", py "--", py "-A"]).map (·.2) = .ok [py "-A"] := by
  refine ⟨?_, ?_, ?_, ?_⟩ <;> decide +kernel

/-! ### C156 -/

theorem abbrev_names :
    (∀ opts ∈ ALL_OPTS, ∀ o ∈ opts, ∀ n : Str, n ≠ [] → '-' :: '-' :: n <+: o.long →
      (opts = FIND_SYMBOLS_OPTS → n ≠ py "e") → Names opts ('-' :: '-' :: n) o) ∧
    ∀ l os m args, ¬ (['-', '-'] ∉ l ∧ Means FIND_SYMBOLS_OPTS (l ++ py "--e" :: m) os args) := by
  constructor
  · intro opts ho o h1 n hn hp hx
    have key : ∀ opts ∈ ALL_OPTS, ∀ o ∈ opts, ∀ w ∈ o.long.inits, 2 < w.length →
        (opts = FIND_SYMBOLS_OPTS → w ≠ py "--e") → ∀ p ∈ opts, w.isPrefixOf p.long = true → p = o := by
      decide +kernel
    refine ⟨h1, .inr ⟨hp, fun p h2 h3 => ?_⟩⟩
    refine key opts ho o h1 _ ((List.mem_inits _ _).2 hp) ?_ ?_ p h2 (List.isPrefixOf_iff_prefix.2 h3)
    · have := List.length_pos_iff.2 hn
      simp only [List.length_cons]
      omega
    · intro e h
      cases h
      exact hx e rfl
  · rintro l os m args ⟨hl, h⟩
    obtain ⟨os1, r1, os2, r2, -, h2, -, -⟩ := (means_append hl _ _ _).1 h
    cases h2 with
    | plain h _ =>
      rcases h with h | h
      · cases h
      · exact absurd rfl h
    | letters _ h _ => exact letters_dash C153_good.2.2.1 h
    | @name n _ _ o _ _ h1 _ =>
      have key : ∀ o ∈ FIND_SYMBOLS_OPTS, o.long ≠ py "--e" ∧
          ∃ p ∈ FIND_SYMBOLS_OPTS, (py "--e").isPrefixOf p.long = true ∧ p ≠ o := by decide +kernel
      obtain ⟨k1, p, k2, k3, k4⟩ := key o h1.1
      rcases h1.2 with h1 | ⟨-, h1⟩
      · exact k1 h1
      · exact k4 (h1 p k2 (List.isPrefixOf_iff_prefix.1 k3))

theorem all_good : ∀ opts ∈ ALL_OPTS, GoodOpts opts := by
  obtain ⟨g1, g2, g3, g4, g5, g6, g7⟩ := C153_good
  intro opts h
  simp only [ALL_OPTS, List.mem_cons, List.not_mem_nil, or_false] at h
  rcases h with rfl | rfl | rfl | rfl | rfl | rfl | rfl <;> assumption

theorem names_process {opts : List Opt} (hg : GoodOpts opts) {n : Str} {o : Opt} (h : Names opts n o)
    (v : Dict Str Bool) : processLong opts n v = o.process v := by
  cases hd : o.dest with
  | none => rw [long_help hg h v hd]; unfold Opt.process; rw [hd]
  | some d =>
    have : ∃ v', o.process v = .ok v' := by unfold Opt.process; rw [hd]; exact ⟨_, rfl⟩
    obtain ⟨v', hv'⟩ := this
    rw [hv', long_ok hg]
    exact ⟨o, h, (process_ok o v v').1 hv'⟩

/-- C156, the full statement: the name of an option may be cut off anywhere after its first letter,
wherever it stands before the first `--`. -/
def C156_statement : Prop :=
  ∀ opts ∈ ALL_OPTS, ∀ o ∈ opts, ∀ n : Str, n ≠ [] → '-' :: '-' :: n <+: o.long →
    ∀ l m, ['-', '-'] ∉ l →
      parseArgs opts (l ++ ('-' :: '-' :: n) :: m) = parseArgs opts (l ++ o.long :: m)

/-- It is false: find-symbols has `--end` and `--exact`. -/
theorem C156_refuted : ¬ C156_statement := by
  intro h
  have h1 := h FIND_SYMBOLS_OPTS (by decide) ⟨py "-e", py "--end", some (py "end")⟩ (by decide)
    (py "e") (by decide) (by decide) [] [] (by simp)
  exact absurd h1 (by decide +kernel)

/-- C156: it holds for all options but for `--e` of find-symbols. -/
theorem C156_abbreviated_partial (opts : List Opt) (ho : opts ∈ ALL_OPTS) (o : Opt) (h : o ∈ opts)
    (n : Str) (hn : n ≠ []) (hp : '-' :: '-' :: n <+: o.long)
    (hx : opts = FIND_SYMBOLS_OPTS → n ≠ py "e") (l m : List Str) (hl : ['-', '-'] ∉ l) :
    parseArgs opts (l ++ ('-' :: '-' :: n) :: m) = parseArgs opts (l ++ o.long :: m) := by
  have hg := all_good opts ho
  have h1 := abbrev_names.1 opts ho o h n hn hp hx
  have h2 : Names opts o.long o := ⟨h, .inl rfl⟩
  obtain ⟨n', e, hn'⟩ : ∃ n' : Str, o.long = '-' :: '-' :: n' ∧ n' ≠ [] := by
    obtain ⟨-, n', k1, -, k2⟩ := hg.2.2.2 o h
    exact ⟨n', k2, k1⟩
  have key : ∀ (k : Str) (largs : List Str) (v : Dict Str Bool), k ≠ [] → Names opts ('-' :: '-' :: k) o →
      processArgs opts (('-' :: '-' :: k) :: m) largs v =
        match o.process v with
        | .error e => .error e
        | .ok v' => processArgs opts m largs v' := by
    intro k largs v hk hN
    simp only [processArgs]
    rw [if_neg (by simpa using hk), if_pos (by rw [hasPrefix_prefix]; exact ⟨k, rfl⟩), names_process hg hN]
    cases o.process v <;> rfl
  unfold parseArgs
  rw [processArgs_append opts hl, processArgs_append opts hl]
  cases processArgs opts l [] (defaultValues opts) with
  | error e => rfl
  | ok r =>
    obtain ⟨v, largs⟩ := r
    simp only
    rw [key n largs v hn h1]
    rw [e] at h2 ⊢
    rw [key n' largs v hn' h2]

/-- C156: `--e` of find-symbols is always refused. -/
theorem C156_refused_partial (l m : List Str) (hl : ['-', '-'] ∉ l) :
    ∃ e, parseArgs FIND_SYMBOLS_OPTS (l ++ py "--e" :: m) = .error e := by
  cases h : parseArgs FIND_SYMBOLS_OPTS (l ++ py "--e" :: m) with
  | error e => exact ⟨e, rfl⟩
  | ok r =>
    obtain ⟨v, args⟩ := r
    obtain ⟨os, h1, -⟩ := (C153_parse C153_good.2.2.1 _ _ _).1 h
    exact absurd ⟨hl, h1⟩ (abbrev_names.2 l os m args)

/-- An abbreviated name is accepted, among other options and arguments. -/
example : parseArgs FIND_SYMBOLS_OPTS [py "A", py "--ex", py "-s"] =
    parseArgs FIND_SYMBOLS_OPTS [py "A", py "--exact", py "-s"] :=
  C156_abbreviated_partial FIND_SYMBOLS_OPTS (by decide) ⟨py "-x", py "--exact", some (py "exact")⟩
    (by decide) (py "ex") (by decide) (by decide) (by decide) [py "A"] [py "-s"] (by decide)

example : Names FIND_SYMBOLS_OPTS (py "--ex") ⟨py "-x", py "--exact", some (py "exact")⟩ :=
  abbrev_names.1 FIND_SYMBOLS_OPTS (by decide) _ (by decide) (py "ex") (by decide) (by decide)
    (by decide)

/-! ### C157 -/

theorem given_but {d d' : Str} {os os' : List Opt} (h : SameBut d os os') (hd : d' ≠ d) :
    Given os d' ↔ Given os' d' := by
  unfold Given
  constructor
  · rintro ⟨o, h1, h2⟩
    exact ⟨o, (h o (by rw [h2]; simpa using hd)).1 h1, h2⟩
  · rintro ⟨o, h1, h2⟩
    exact ⟨o, (h o (by rw [h2]; simpa using hd)).2 h1, h2⟩

/-- What the tools see of two command lines that differ in one option. -/
theorem means_but {opts : List Opt} (hg : GoodOpts opts) {d : Str} {argv argv' args : List Str}
    {os os' : List Opt} (h : Means opts argv os args) (h' : Means opts argv' os' args)
    (hs : SameBut d os os') :
    (parseArgs opts argv = .error .help ∧ parseArgs opts argv' = .error .help) ∨
    ∃ v v', parseArgs opts argv = .ok (v, args) ∧ parseArgs opts argv' = .ok (v', args) ∧
      ∀ d' ∈ opts.filterMap (·.dest), d' ≠ d → optValue v d' = optValue v' d' := by
  classical
  have e : (∃ o ∈ os, o.dest = none) ↔ ∃ o ∈ os', o.dest = none := by
    constructor
    · rintro ⟨o, h1, h2⟩; exact ⟨o, (hs o (by rw [h2]; simp)).1 h1, h2⟩
    · rintro ⟨o, h1, h2⟩; exact ⟨o, (hs o (by rw [h2]; simp)).2 h1, h2⟩
  rcases means_values hg h with ⟨a1, a2⟩ | ⟨a1, v, a2, a3⟩ <;>
    rcases means_values hg h' with ⟨b1, b2⟩ | ⟨b1, w, b2, b3⟩
  · exact .inl ⟨a2, b2⟩
  · exact absurd (e.1 a1) b1
  · exact absurd (e.2 b1) a1
  · refine .inr ⟨v, w, a2, b2, fun d' h1 h2 => ?_⟩
    rw [a3 d' h1, b3 d' h1]
    exact decide_eq_decide.2 (given_but hs h2)

/-- C157: on the command line, too, `--verbose` only adds lines. -/
theorem C157_verbose (upper : Str → Str) (extract : Str → List Str → Nat → List Str) (fs : FileSystem)
    (fuel : Nat) (argv argv' args : List Str) (os os' : List Opt)
    (hs : SameBut (py "verbose") os os') :
    (Means CHECK_INSTRUCTIONS_OPTS argv os args → Means CHECK_INSTRUCTIONS_OPTS argv' os' args →
      (checkInstructionsCmd fs fuel argv).1.filterMap usual =
        (checkInstructionsCmd fs fuel argv').1.filterMap usual ∧
      (checkInstructionsCmd fs fuel argv).2 = (checkInstructionsCmd fs fuel argv').2) ∧
    (Means LIST_INSTRUCTIONS_OPTS argv os args → Means LIST_INSTRUCTIONS_OPTS argv' os' args →
      (listInstructionsCmd fs fuel argv).1.filterMap usual =
        (listInstructionsCmd fs fuel argv').1.filterMap usual ∧
      (listInstructionsCmd fs fuel argv).2 = (listInstructionsCmd fs fuel argv').2) ∧
    (Means VERBOSE_OPTS argv os args → Means VERBOSE_OPTS argv' os' args →
      ((listingCmd fs fuel argv).1 = (listingCmd fs fuel argv').1 ∧
       (listingCmd fs fuel argv).2.2 = (listingCmd fs fuel argv').2.2) ∧
      (listSymbolsCmd upper fs fuel argv).1.filterMap usual =
        (listSymbolsCmd upper fs fuel argv').1.filterMap usual ∧
      (listSymbolsCmd upper fs fuel argv).2 = (listSymbolsCmd upper fs fuel argv').2) ∧
    (Means CHECK_SYMBOLS_OPTS argv os args → Means CHECK_SYMBOLS_OPTS argv' os' args →
      (checkSymbolsCmd upper extract fs fuel argv).1.filterMap usual =
        (checkSymbolsCmd upper extract fs fuel argv').1.filterMap usual ∧
      (checkSymbolsCmd upper extract fs fuel argv).2 =
        (checkSymbolsCmd upper extract fs fuel argv').2) ∧
    (Means FIND_SYMBOLS_OPTS argv os args → Means FIND_SYMBOLS_OPTS argv' os' args →
      (findSymbolsCmd upper extract fs fuel argv).1.filterMap usual =
        (findSymbolsCmd upper extract fs fuel argv').1.filterMap usual ∧
      (findSymbolsCmd upper extract fs fuel argv).2 =
        (findSymbolsCmd upper extract fs fuel argv').2) ∧
    (Means PARSE_OPTS argv os args → Means PARSE_OPTS argv' os' args →
      (parseCmd upper fs fuel argv).1.filterMap usual =
        (parseCmd upper fs fuel argv').1.filterMap usual ∧
      (parseCmd upper fs fuel argv).2 = (parseCmd upper fs fuel argv').2) := by
  obtain ⟨g1, g2, g3, g4, g5, g6, g7⟩ := C153_good
  refine ⟨fun h h' => ?_, fun h h' => ?_, fun h h' => ?_, fun h h' => ?_, fun h h' => ?_,
    fun h h' => ?_⟩
  · unfold checkInstructionsCmd
    rcases means_but g1 h h' hs with ⟨e1, e2⟩ | ⟨v, w, e1, e2, e3⟩ <;> rw [e1, e2]
    · exact ⟨rfl, rfl⟩
    · simp only
      rw [e3 (py "all") (by decide) (by decide), e3 (py "count") (by decide) (by decide),
        e3 (py "invalid") (by decide) (by decide), e3 (py "printOpcodes") (by decide) (by decide),
        e3 (py "sort") (by decide) (by decide), e3 (py "unused") (by decide) (by decide)]
      constructor
      · rw [(C151_check _ _ _ _ _).1, (C151_check _ _ _ _ _).1]
      · rw [(C151_check _ _ _ _ _).2.1, (C151_check _ _ _ _ _).2.1]
  · unfold listInstructionsCmd
    rcases means_but g4 h h' hs with ⟨e1, e2⟩ | ⟨v, w, e1, e2, e3⟩ <;> rw [e1, e2]
    · exact ⟨rfl, rfl⟩
    · simp only
      rw [e3 (py "details") (by decide) (by decide)]
      constructor
      · rw [(C151_list _ _ _ _ _).1, (C151_list _ _ _ _ _).1]
      · rw [(C151_list _ _ _ _ _).2.1, (C151_list _ _ _ _ _).2.1]
  · unfold listingCmd listSymbolsCmd
    rcases means_but g5 h h' hs with ⟨e1, e2⟩ | ⟨v, w, e1, e2, e3⟩ <;> rw [e1, e2]
    · exact ⟨⟨rfl, rfl⟩, rfl, rfl⟩
    · refine ⟨⟨?_, ?_⟩, ?_, ?_⟩
      · exact (C151_listing _ _ _ _).1.trans (C151_listing _ _ _ _).1.symm
      · exact (C151_listing _ _ _ _).2.1.trans (C151_listing _ _ _ _).2.1.symm
      · exact (C151_list_symbols _ _ _ _ _).1.trans (C151_list_symbols _ _ _ _ _).1.symm
      · exact (C151_list_symbols _ _ _ _ _).2.1.trans (C151_list_symbols _ _ _ _ _).2.1.symm
  · unfold checkSymbolsCmd
    rcases means_but g2 h h' hs with ⟨e1, e2⟩ | ⟨v, w, e1, e2, e3⟩ <;> rw [e1, e2]
    · exact ⟨rfl, rfl⟩
    · simp only
      rw [e3 (py "complex") (by decide) (by decide)]
      exact ⟨(C151_check_symbols _ _ _ _ _ _ _).1.trans (C151_check_symbols _ _ _ _ _ _ _).1.symm,
        (C151_check_symbols _ _ _ _ _ _ _).2.1.trans (C151_check_symbols _ _ _ _ _ _ _).2.1.symm⟩
  · unfold findSymbolsCmd
    rcases means_but g3 h h' hs with ⟨e1, e2⟩ | ⟨v, w, e1, e2, e3⟩ <;> rw [e1, e2]
    · exact ⟨rfl, rfl⟩
    · simp only
      rw [e3 (py "begin") (by decide) (by decide), e3 (py "end") (by decide) (by decide),
        e3 (py "fuzzy") (by decide) (by decide), e3 (py "exact") (by decide) (by decide)]
      exact ⟨(C151_find_symbols _ _ _ _ _ _ _ _ _ _).1.trans
          (C151_find_symbols _ _ _ _ _ _ _ _ _ _).1.symm,
        (C151_find_symbols _ _ _ _ _ _ _ _ _ _).2.1.trans
          (C151_find_symbols _ _ _ _ _ _ _ _ _ _).2.1.symm⟩
  · unfold parseCmd
    rcases means_but g6 h h' hs with ⟨e1, e2⟩ | ⟨v, w, e1, e2, e3⟩ <;> rw [e1, e2]
    · exact ⟨rfl, rfl⟩
    · simp only
      rw [e3 (py "debug") (by decide) (by decide)]
      obtain ⟨s, c, h1, h2, h3⟩ := C151_parse (optValue v (py "verbose")) upper fs fuel
        (optValue w (py "debug")) args
      obtain ⟨s', c', k1, k2, k3⟩ := C151_parse (optValue w (py "verbose")) upper fs fuel
        (optValue w (py "debug")) args
      rw [h2] at k2
      have inj : Function.Injective (VMsg.msg : ParseMsg → VMsg ParseMsg) := fun a b h => by
        cases h; rfl
      have := List.map_injective_iff.2 inj k2
      refine ⟨by rw [h1, k1, this], ?_⟩
      rw [h3] at k3
      exact (Prod.mk.inj k3).2

/-- C157 on command lines with and without `-v`: the first prints more. -/
example : (checkInstructionsCmd verboseFs 10 [py "-cv", py "A.arg"]).1.filterMap usual =
      (checkInstructionsCmd verboseFs 10 [py "-c", py "A.arg"]).1.filterMap usual ∧
    (checkInstructionsCmd verboseFs 10 [py "-cv", py "A.arg"]).1 ≠
      (checkInstructionsCmd verboseFs 10 [py "-c", py "A.arg"]).1 := by
  constructor <;> decide +kernel

/-! ### C158 -/

/-- C158, the full statement: genlines can be given any numbers, that is, the arguments on the
command line are those of the program. -/
def C158_statement : Prop :=
  ∀ ns : List Int, genlinesCmd (ns.map pyStr) = genlines (ns.map pyStr)

/-- It is false: counting down needs a negative step, which is taken for an option. -/
theorem C158_refuted : ¬ C158_statement := by
  intro h
  exact absurd (h [3, 1, -1]) (by decide +kernel)

theorem means_none {opts : List Opt} {argv args : List Str} {os : List Opt}
    (h : Means opts argv os args) (hn : ['-', '-'] ∉ argv) (e : os = []) :
    args = argv ∧ ∀ a ∈ argv, PlainArg a := by
  induction h with
  | done => exact ⟨rfl, fun _ h => nomatch h⟩
  | stop => exact absurd List.mem_cons_self hn
  | plain k1 _ ih =>
    obtain ⟨k2, k3⟩ := ih (fun h => hn (List.mem_cons_of_mem _ h)) e
    refine ⟨by rw [k2], fun a ha => ?_⟩
    rcases List.mem_cons.1 ha with rfl | ha
    · exact k1
    · exact k3 a ha
  | letters k1 k2 _ _ =>
    rw [List.append_eq_nil_iff] at e
    rw [e.1] at k2
    cases k2
    exact absurd rfl k1
  | name => cases e

theorem noopts_plain {argv args : List Str} {v : Dict Str Bool}
    (h : parseArgs NO_OPTS argv = .ok (v, args)) (hn : ['-', '-'] ∉ argv) :
    ∀ a ∈ argv, PlainArg a := by
  obtain ⟨os, h1, h2, -, -⟩ := (C153_parse C153_good.2.2.2.2.2.2 _ _ _).1 h
  have : os = [] := by
    cases os with
    | nil => rfl
    | cons o os =>
      have h3 := means_mem h1 o List.mem_cons_self
      rw [NO_OPTS, List.mem_singleton] at h3
      subst h3
      exact absurd rfl (h2 _ List.mem_cons_self)
  exact (means_none h1 hn this).2

theorem noopts_means {argv args : List Str} (h : Means NO_OPTS argv [] args) :
    ∃ v, parseArgs NO_OPTS argv = .ok (v, args) := by
  rcases means_values C153_good.2.2.2.2.2.2 h with ⟨⟨o, ho, -⟩, -⟩ | ⟨-, v, h, -⟩
  · cases ho
  · exact ⟨v, h⟩

/-- C158: genlines and genpages take their arguments as they are if none looks like an option, or
after `--`; in all other cases they exit and do nothing. -/
theorem C158_args_partial (fs : FileSystem) (fuel : Nat) (argv : List Str) :
    ((∀ a ∈ argv, PlainArg a) →
      genlinesCmd argv = genlines argv ∧ genpagesCmd fs fuel argv = genpages fs fuel argv) ∧
    (genlinesCmd (['-', '-'] :: argv) = genlines argv ∧
      genpagesCmd fs fuel (['-', '-'] :: argv) = genpages fs fuel argv) ∧
    (['-', '-'] ∉ argv → (∃ a ∈ argv, ¬ PlainArg a) →
      genlinesCmd argv = .error .systemExit ∧
        genpagesCmd fs fuel argv = (fs, .error .systemExit)) := by
  refine ⟨fun h => ?_, ?_, fun hn h => ?_⟩
  · obtain ⟨v, hv⟩ := noopts_means (means_plain (opts := NO_OPTS) h)
    unfold genlinesCmd genpagesCmd
    rw [hv]
    exact ⟨rfl, rfl⟩
  · obtain ⟨v, hv⟩ := noopts_means (.stop (opts := NO_OPTS) argv)
    unfold genlinesCmd genpagesCmd
    rw [hv]
    exact ⟨rfl, rfl⟩
  · unfold genlinesCmd genpagesCmd
    cases hp : parseArgs NO_OPTS argv with
    | error e => exact ⟨rfl, rfl⟩
    | ok p =>
      obtain ⟨a, h1, h2⟩ := h
      exact absurd (noopts_plain (args := p.2) (v := p.1) hp hn a h1) h2

theorem numeral_head (n : Nat) : ∃ c cs, numeral 10 n = c :: cs ∧ c ≠ '-' := by
  obtain ⟨-, h2, -, h4⟩ := digits_spec 10 n (by omega)
  unfold numeral
  cases hd : digits 10 n with
  | nil => exact absurd hd h4
  | cons d ds =>
    refine ⟨digitChar d, ds.map digitChar, rfl, ?_⟩
    have : ∀ d < 10, digitChar d ≠ '-' := by decide
    exact this d (h2 d (hd ▸ List.mem_cons_self))

/-- C158: so genlines does what it is told exactly for numbers of which none is negative. -/
theorem C158_numbers_partial (ns : List Int) :
    ((∀ n ∈ ns, 0 ≤ n) → genlinesCmd (ns.map pyStr) = genlines (ns.map pyStr)) ∧
    ((∃ n ∈ ns, n < 0) → genlinesCmd (ns.map pyStr) = .error .systemExit) := by
  constructor
  · intro h
    refine ((C158_args_partial (fun _ => none) 0 _).1 ?_).1
    intro a ha
    obtain ⟨n, h1, rfl⟩ := List.mem_map.1 ha
    unfold pyStr
    rw [if_neg (by have := h n h1; omega)]
    obtain ⟨c, cs, e, hc⟩ := numeral_head n.natAbs
    rw [e]
    right
    simpa using hc
  · rintro ⟨n, h1, h2⟩
    refine ((C158_args_partial (fun _ => none) 0 _).2.2 ?_ ?_).1
    · intro h
      obtain ⟨m, -, h4⟩ := List.mem_map.1 h
      unfold pyStr at h4
      obtain ⟨c, cs, e, hc⟩ := numeral_head m.natAbs
      rw [e] at h4
      split at h4 <;> cases h4 <;> exact hc rfl
    · refine ⟨_, List.mem_map.2 ⟨n, h1, rfl⟩, ?_⟩
      unfold pyStr
      obtain ⟨c, cs, e, hc⟩ := numeral_head n.natAbs
      rw [if_pos h2, e]
      rintro (h | h)
      · cases h
      · exact h rfl

/-- C158: counting down from 3 to 1. -/
example : genlinesCmd [py "--", py "3", py "1", py "-1"] =
      .ok [py " 0003   ", py " 0002   ", py " 0001   "] ∧
    genlinesCmd [py "3", py "1", py "-1"] = .error .systemExit ∧
    genlinesCmd [py "1", py "3"] = .ok [py " 0001   ", py " 0002   ", py " 0003   "] := by
  refine ⟨?_, ?_, ?_⟩ <;> decide +kernel

/-! ### C159 -/

/-- C159, the full statement: each option of a tool makes a difference for some files and
arguments. -/
def C159_statement : Prop :=
  (∀ d ∈ CHECK_INSTRUCTIONS_OPTS.filterMap (·.dest),
    ∃ fs fuel, Matters CHECK_INSTRUCTIONS_OPTS (checkInstructionsCmd fs fuel) d) ∧
  (∀ d ∈ LIST_INSTRUCTIONS_OPTS.filterMap (·.dest),
    ∃ fs fuel, Matters LIST_INSTRUCTIONS_OPTS (listInstructionsCmd fs fuel) d) ∧
  (∀ d ∈ VERBOSE_OPTS.filterMap (·.dest),
    ∃ fs fuel, Matters VERBOSE_OPTS (fun argv => (listingCmd fs fuel argv).2) d) ∧
  (∀ d ∈ VERBOSE_OPTS.filterMap (·.dest),
    ∃ upper fs fuel, Matters VERBOSE_OPTS (listSymbolsCmd upper fs fuel) d) ∧
  (∀ d ∈ CHECK_SYMBOLS_OPTS.filterMap (·.dest),
    ∃ upper extract fs fuel, Matters CHECK_SYMBOLS_OPTS (checkSymbolsCmd upper extract fs fuel) d) ∧
  (∀ d ∈ FIND_SYMBOLS_OPTS.filterMap (·.dest),
    ∃ upper extract fs fuel, Matters FIND_SYMBOLS_OPTS (findSymbolsCmd upper extract fs fuel) d) ∧
  (∀ d ∈ PARSE_OPTS.filterMap (·.dest),
    ∃ upper fs fuel, Matters PARSE_OPTS (parseCmd upper fs fuel) d)

/-- `--details` of find-symbols is accepted and ignored. -/
theorem details_idle (upper : Str → Str) (extract : Str → List Str → Nat → List Str)
    (fs : FileSystem) (fuel : Nat) :
    ¬ Matters FIND_SYMBOLS_OPTS (findSymbolsCmd upper extract fs fuel) (py "details") := by
  rintro ⟨argv, argv', args, os, os', h, h', hs, hne⟩
  apply hne
  unfold findSymbolsCmd
  rcases means_but C153_good.2.2.1 h h' hs with ⟨e1, e2⟩ | ⟨v, w, e1, e2, e3⟩ <;> rw [e1, e2]
  simp only
  rw [e3 (py "verbose") (by decide) (by decide), e3 (py "begin") (by decide) (by decide),
    e3 (py "end") (by decide) (by decide), e3 (py "fuzzy") (by decide) (by decide),
    e3 (py "exact") (by decide) (by decide)]

theorem checkStepV_keys (v : Bool) (opts : CheckOpts) (st : CheckStateV) (c : CodeCard)
    (hk : st.instrtab.map (·.1) = INSTRUCTIONS) :
    (checkStepV v opts st c).instrtab.map (·.1) = INSTRUCTIONS := by
  unfold checkStepV
  cases c.instruction with
  | none => exact hk
  | some i =>
    cases i with
    | nil => exact hk
    | cons x xs =>
      simp only
      split
      · exact hk
      · cases hd : dget st.instrtab (x :: xs) with
        | none => exact hk
        | some n =>
          have := (dset_keys_same (v := n + 1) hd).trans hk
          simp only
          split
          · split <;> exact this
          · exact this

theorem checkStepV_invalid (v : Bool) (opts opts' : CheckOpts)
    (ho : opts.printOpcodes = opts'.printOpcodes) (st : CheckStateV) (c : CodeCard)
    (hk : st.instrtab.map (·.1) = INSTRUCTIONS) :
    checkStepV v opts st c = checkStepV v opts' st c := by
  unfold checkStepV
  cases c.instruction with
  | none => rfl
  | some i =>
    cases i with
    | nil => rfl
    | cons x xs =>
      simp only [ho]
      split
      · rfl
      · cases hd : dget st.instrtab (x :: xs) with
        | none => rfl
        | some n =>
          have : INSTRUCTIONS.contains (x :: xs) = true := by
            rw [List.contains_iff_mem, ← hk]
            exact dget_isSome.1 (by rw [hd]; rfl)
          simp only [this, if_true, ite_self]

theorem checkFoldV_invalid (v : Bool) (opts opts' : CheckOpts)
    (ho : opts.printOpcodes = opts'.printOpcodes) (cs : List CodeCard) (st : CheckStateV)
    (hk : st.instrtab.map (·.1) = INSTRUCTIONS) :
    cs.foldl (checkStepV v opts) st = cs.foldl (checkStepV v opts') st ∧
      (cs.foldl (checkStepV v opts) st).instrtab.map (·.1) = INSTRUCTIONS := by
  induction cs generalizing st with
  | nil => exact ⟨rfl, hk⟩
  | cons c cs ih =>
    rw [List.foldl_cons, List.foldl_cons, ← checkStepV_invalid v opts opts' ho st c hk]
    exact ih _ (checkStepV_keys v opts st c hk)

theorem checkFilesV_invalid (v : Bool) (fs : FileSystem) (fuel : Nat) (opts opts' : CheckOpts)
    (ho : opts.printOpcodes = opts'.printOpcodes) (files : List Str) (st : CheckStateV)
    (hk : st.instrtab.map (·.1) = INSTRUCTIONS) :
    checkFilesV v fs fuel opts files st = checkFilesV v fs fuel opts' files st := by
  induction files generalizing st with
  | nil => rfl
  | cons f files ih =>
    rw [checkFilesV, checkFilesV]
    cases deckCardsV (α := CheckMsg) v fs fuel f with
    | mk o r =>
      cases r with
      | error e => rfl
      | ok cards =>
        simp only
        have := checkFoldV_invalid v opts opts' ho cards { st with out := st.out ++ o } hk
        rw [← this.1]
        exact ih _ this.2

/-- `--invalid` and `--all` of check-instructions make no difference: an instruction that is counted is
always a known one. -/
theorem checkInstructionsV_invalid (v : Bool) (fs : FileSystem) (fuel : Nat) (a a' c i i' p s u : Bool)
    (args : List Str) :
    checkInstructionsV v fs fuel ⟨a, c, i, p, s, u⟩ args =
      checkInstructionsV v fs fuel ⟨a', c, i', p, s, u⟩ args := by
  have hk : CheckStateV.init.instrtab.map (·.1) = INSTRUCTIONS := by decide +kernel
  have hf : ∀ n d, freqLinesRun ⟨a, c, i, p, s, u⟩ n d = freqLinesRun ⟨a', c, i', p, s, u⟩ n d := by
    intro n d
    induction d with
    | nil => rfl
    | cons q d ih =>
      obtain ⟨k, m⟩ := q
      rw [freqLinesRun, freqLinesRun, ih]
  unfold checkInstructionsV
  rw [checkFilesV_invalid v fs fuel ⟨a, c, i, p, s, u⟩ ⟨a', c, i', p, s, u⟩ rfl args _ hk]
  simp only [hf]
  rfl

theorem invalid_idle (fs : FileSystem) (fuel : Nat) (d : Str) (hd : d = py "invalid" ∨ d = py "all") :
    ¬ Matters CHECK_INSTRUCTIONS_OPTS (checkInstructionsCmd fs fuel) d := by
  rintro ⟨argv, argv', args, os, os', h, h', hs, hne⟩
  apply hne
  unfold checkInstructionsCmd
  have hx : ∀ x ∈ [py "verbose", py "count", py "printOpcodes", py "sort", py "unused"], x ≠ d := by
    rcases hd with rfl | rfl <;> decide
  rcases means_but C153_good.1 h h' hs with ⟨e1, e2⟩ | ⟨v, w, e1, e2, e3⟩ <;> rw [e1, e2]
  simp only
  rw [e3 (py "verbose") (by decide) (hx _ (by decide)), e3 (py "count") (by decide) (hx _ (by decide)),
    e3 (py "printOpcodes") (by decide) (hx _ (by decide)), e3 (py "sort") (by decide) (hx _ (by decide)),
    e3 (py "unused") (by decide) (hx _ (by decide))]
  exact checkInstructionsV_invalid _ _ _ _ _ _ _ _ _ _ _ _

/-- It is false. -/
theorem C159_refuted : ¬ C159_statement := by
  intro h
  obtain ⟨fs, fuel, h⟩ := h.1 (py "all") (by decide)
  exact invalid_idle fs fuel _ (.inr rfl) h

theorem matters_of {β : Type} {opts : List Opt} (hg : GoodOpts opts) {cmd : List Str → β} {d : Str}
    (o : Opt) (rest : List Opt) (args : List Str) (ho : o ∈ opts) (hd : o.dest = some d)
    (hr : ∀ p ∈ rest, p ∈ opts)
    (hne : cmd ((o :: rest).map (·.short) ++ ['-', '-'] :: args) ≠
      cmd (rest.map (·.short) ++ ['-', '-'] :: args)) : Matters opts cmd d := by
  refine ⟨_, _, args, o :: rest, rest, (means_reach hg _ ?_ args).1, (means_reach hg _ hr args).1, ?_, hne⟩
  · intro p hp
    rcases List.mem_cons.1 hp with rfl | hp
    · exact ho
    · exact hr p hp
  · intro p hp
    rw [List.mem_cons]
    constructor
    · rintro (rfl | h)
      · exact absurd hd hp
      · exact h
    · exact .inr

/-- A number that differs for outputs that differ, in the examples below. -/
def summary (l : List (VMsg SymMsg)) : Nat :=
  l.length + 10 * (l.filter fun
    | .msg (.found (.names _)) => true
    | _ => false).length

/-- C159: of check-instructions, `--all` and `--invalid` never make a difference, and all other options
do for some files; of find-symbols, `--details` never does, and all others do; the options of the other
tools all do. -/
theorem C159_partial :
    (∀ d ∈ CHECK_INSTRUCTIONS_OPTS.filterMap (·.dest),
      (∃ fs fuel, Matters CHECK_INSTRUCTIONS_OPTS (checkInstructionsCmd fs fuel) d) ↔
        d ≠ py "all" ∧ d ≠ py "invalid") ∧
    (∀ d ∈ LIST_INSTRUCTIONS_OPTS.filterMap (·.dest),
      ∃ fs fuel, Matters LIST_INSTRUCTIONS_OPTS (listInstructionsCmd fs fuel) d) ∧
    (∀ d ∈ VERBOSE_OPTS.filterMap (·.dest),
      ∃ fs fuel, Matters VERBOSE_OPTS (fun argv => (listingCmd fs fuel argv).2) d) ∧
    (∀ d ∈ VERBOSE_OPTS.filterMap (·.dest),
      ∃ upper fs fuel, Matters VERBOSE_OPTS (listSymbolsCmd upper fs fuel) d) ∧
    (∀ d ∈ CHECK_SYMBOLS_OPTS.filterMap (·.dest),
      ∃ upper extract fs fuel,
        Matters CHECK_SYMBOLS_OPTS (checkSymbolsCmd upper extract fs fuel) d) ∧
    (∀ d ∈ FIND_SYMBOLS_OPTS.filterMap (·.dest),
      (∃ upper extract fs fuel,
        Matters FIND_SYMBOLS_OPTS (findSymbolsCmd upper extract fs fuel) d) ↔ d ≠ py "details") ∧
    (∀ d ∈ PARSE_OPTS.filterMap (·.dest),
      ∃ upper fs fuel, Matters PARSE_OPTS (parseCmd upper fs fuel) d) := by
  obtain ⟨g1, g2, g3, g4, g5, g6, -⟩ := C153_good
  refine ⟨?_, ?_, ?_, ?_, ?_, ?_, ?_⟩
  · have key : ∀ o ∈ CHECK_INSTRUCTIONS_OPTS, ∀ d, o.dest = some d → d ≠ py "all" ∧ d ≠ py "invalid" →
        ∃ rest : List Opt, (∀ p ∈ rest, p ∈ CHECK_INSTRUCTIONS_OPTS) ∧
          checkInstructionsCmd verboseFs 5 ((o :: rest).map (·.short) ++ ['-', '-'] :: [py "A.arg"]) ≠
            checkInstructionsCmd verboseFs 5 (rest.map (·.short) ++ ['-', '-'] :: [py "A.arg"]) := by
      intro o ho d hd hn
      refine ⟨if o.short = py "-s" then [⟨py "-c", py "--count", some (py "count")⟩] else [], ?_, ?_⟩
      · split <;> decide
      · have : ∀ o ∈ CHECK_INSTRUCTIONS_OPTS,
            o.dest ∉ [none, some (py "all"), some (py "invalid")] →
            checkInstructionsCmd verboseFs 5 ((o :: if o.short = py "-s" then
              [⟨py "-c", py "--count", some (py "count")⟩] else []).map (·.short) ++
                ['-', '-'] :: [py "A.arg"]) ≠
            checkInstructionsCmd verboseFs 5 (((if o.short = py "-s" then
              [⟨py "-c", py "--count", some (py "count")⟩] else []) : List Opt).map (·.short) ++
                ['-', '-'] :: [py "A.arg"]) := by decide +kernel
        refine this o ho ?_
        rw [hd]
        simp [hn]
    intro d hd
    constructor
    · rintro ⟨fs, fuel, h⟩
      exact ⟨fun e => invalid_idle fs fuel d (.inr e) h, fun e => invalid_idle fs fuel d (.inl e) h⟩
    · intro hn
      obtain ⟨o, ho, hd⟩ := List.mem_filterMap.1 hd
      obtain ⟨rest, h1, h2⟩ := key o ho d hd hn
      exact ⟨verboseFs, 5, matters_of g1 o rest _ ho hd h1 h2⟩
  · have key : ∀ o ∈ LIST_INSTRUCTIONS_OPTS, o.dest ≠ none →
        listInstructionsCmd verboseFs 5 ([o].map (·.short) ++ ['-', '-'] :: [py "TN", py "A.arg"]) ≠
          listInstructionsCmd verboseFs 5 (([] : List Opt).map (·.short) ++
            ['-', '-'] :: [py "TN", py "A.arg"]) := by decide +kernel
    intro d hd
    obtain ⟨o, ho, hd⟩ := List.mem_filterMap.1 hd
    exact ⟨verboseFs, 5, matters_of g4 o [] _ ho hd (fun _ h => nomatch h)
      (key o ho (by rw [hd]; simp))⟩
  · have key : ∀ o ∈ VERBOSE_OPTS, o.dest ≠ none →
        (listingCmd verboseFs 5 ([o].map (·.short) ++ ['-', '-'] :: [py "A.arg"])).2 ≠
          (listingCmd verboseFs 5 (([] : List Opt).map (·.short) ++
            ['-', '-'] :: [py "A.arg"])).2 := by decide +kernel
    intro d hd
    obtain ⟨o, ho, hd⟩ := List.mem_filterMap.1 hd
    exact ⟨verboseFs, 5, matters_of g5 o [] _ ho hd (fun _ h => nomatch h)
      (key o ho (by rw [hd]; simp))⟩
  · have key : ∀ o ∈ VERBOSE_OPTS, o.dest ≠ none →
        (listSymbolsCmd id twoFs 5 ([o].map (·.short) ++ ['-', '-'] :: [py "A.arg"])).1.length ≠
          (listSymbolsCmd id twoFs 5 (([] : List Opt).map (·.short) ++
            ['-', '-'] :: [py "A.arg"])).1.length := by decide +kernel
    intro d hd
    obtain ⟨o, ho, hd⟩ := List.mem_filterMap.1 hd
    exact ⟨id, twoFs, 5, matters_of g5 o [] _ ho hd (fun _ h => nomatch h)
      (fun e => key o ho (by rw [hd]; simp) (by rw [e]))⟩
  · have key : ∀ o ∈ CHECK_SYMBOLS_OPTS, o.dest ≠ none →
        (checkSymbolsCmd asciiUpper (fun _ _ _ => []) twoFs 5
          ([o].map (·.short) ++ ['-', '-'] :: [py "A.arg", py "B.arg"])).1.length ≠
        (checkSymbolsCmd asciiUpper (fun _ _ _ => []) twoFs 5 (([] : List Opt).map (·.short) ++
            ['-', '-'] :: [py "A.arg", py "B.arg"])).1.length := by decide +kernel
    intro d hd
    obtain ⟨o, ho, hd⟩ := List.mem_filterMap.1 hd
    exact ⟨asciiUpper, fun _ _ _ => [], twoFs, 5, matters_of g2 o [] _ ho hd (fun _ h => nomatch h)
      (fun e => key o ho (by rw [hd]; simp) (by rw [e]))⟩
  · have key : ∀ o ∈ FIND_SYMBOLS_OPTS, o.dest ∉ [none, some (py "details")] →
        summary (findSymbolsCmd asciiUpper (fun _ _ _ => []) twoFs 5
          ((o :: if o.short = py "-x" then [⟨py "-b", py "--begin", some (py "begin")⟩] else []).map
            (·.short) ++ ['-', '-'] :: [py "C", py "A.arg", py "B.arg"])).1 ≠
        summary (findSymbolsCmd asciiUpper (fun _ _ _ => []) twoFs 5
          (((if o.short = py "-x" then [⟨py "-b", py "--begin", some (py "begin")⟩] else []) :
            List Opt).map (·.short) ++ ['-', '-'] :: [py "C", py "A.arg", py "B.arg"])).1 := by
      decide +kernel
    intro d hd
    constructor
    · rintro ⟨upper, extract, fs, fuel, h⟩ rfl
      exact details_idle upper extract fs fuel h
    · intro hn
      obtain ⟨o, ho, hd⟩ := List.mem_filterMap.1 hd
      refine ⟨asciiUpper, fun _ _ _ => [], twoFs, 5, matters_of g3 o _ _ ho hd ?_
        (fun e => key o ho (by rw [hd]; simpa using hn) (by rw [e]))⟩
      split <;> decide
  · have key : ∀ o ∈ PARSE_OPTS, o.dest ≠ none →
        (parseCmd id verboseFs 5 ([o].map (·.short) ++ ['-', '-'] :: [py "A.arg"])).1.length ≠
          (parseCmd id verboseFs 5 (([] : List Opt).map (·.short) ++
            ['-', '-'] :: [py "A.arg"])).1.length := by decide +kernel
    intro d hd
    obtain ⟨o, ho, hd⟩ := List.mem_filterMap.1 hd
    exact ⟨id, verboseFs, 5, matters_of g6 o [] _ ho hd (fun _ h => nomatch h)
      (fun e => key o ho (by rw [hd]; simp) (by rw [e]))⟩

/-- C159: `--exact` of find-symbols only forbids `--begin`, `--end` and `--fuzzy`. -/
theorem C159_exact_partial (upper : Str → Str) (extract : Str → List Str → Nat → List Str)
    (fs : FileSystem) (fuel : Nat) (argv argv' args : List Str) (os os' : List Opt)
    (h : Means FIND_SYMBOLS_OPTS argv os args) (h' : Means FIND_SYMBOLS_OPTS argv' os' args)
    (hs : SameBut (py "exact") os os') (hx : Given os (py "exact"))
    (hx' : ¬ Given os' (py "exact")) :
    (Given os (py "begin") ∨ Given os (py "end") ∨ Given os (py "fuzzy") →
      findSymbolsCmd upper extract fs fuel argv = ([], .error .systemExit)) ∧
    (¬ (Given os (py "begin") ∨ Given os (py "end") ∨ Given os (py "fuzzy")) →
      findSymbolsCmd upper extract fs fuel argv = findSymbolsCmd upper extract fs fuel argv') := by
  classical
  unfold findSymbolsCmd
  have e : (∃ o ∈ os, o.dest = none) ↔ ∃ o ∈ os', o.dest = none := by
    constructor
    · rintro ⟨o, h1, h2⟩; exact ⟨o, (hs o (by rw [h2]; simp)).1 h1, h2⟩
    · rintro ⟨o, h1, h2⟩; exact ⟨o, (hs o (by rw [h2]; simp)).2 h1, h2⟩
  rcases means_values C153_good.2.2.1 h with ⟨a1, a2⟩ | ⟨a1, v, a2, a3⟩ <;>
    rcases means_values C153_good.2.2.1 h' with ⟨b1, b2⟩ | ⟨b1, w, b2, b3⟩
  · rw [a2, b2]; exact ⟨fun _ => rfl, fun _ => rfl⟩
  · exact absurd (e.1 a1) b1
  · exact absurd (e.2 b1) a1
  · rw [a2, b2]
    simp only
    rw [a3 (py "exact") (by decide), b3 (py "exact") (by decide), decide_eq_true hx,
      decide_eq_false hx', a3 (py "begin") (by decide), b3 (py "begin") (by decide),
      a3 (py "end") (by decide), b3 (py "end") (by decide), a3 (py "fuzzy") (by decide),
      b3 (py "fuzzy") (by decide), a3 (py "verbose") (by decide), b3 (py "verbose") (by decide)]
    simp only [given_but hs (show py "begin" ≠ py "exact" by decide),
      given_but hs (show py "end" ≠ py "exact" by decide),
      given_but hs (show py "fuzzy" ≠ py "exact" by decide),
      given_but hs (show py "verbose" ≠ py "exact" by decide)]
    generalize decide (Given os' (py "verbose")) = vb
    by_cases k1 : Given os' (py "begin") <;> by_cases k2 : Given os' (py "end") <;>
      by_cases k3 : Given os' (py "fuzzy") <;> simp [k1, k2, k3, findSymbolsV]

/-- C159: `--exact` with and without `--begin`. -/
example : summary (findSymbolsCmd asciiUpper (fun _ _ _ => []) twoFs 5
      [py "-x", py "C", py "A.arg"]).1 =
      summary (findSymbolsCmd asciiUpper (fun _ _ _ => []) twoFs 5 [py "C", py "A.arg"]).1 ∧
    (findSymbolsCmd asciiUpper (fun _ _ _ => []) twoFs 5 [py "-xb", py "C", py "A.arg"]).2 =
      .error .systemExit := by
  constructor <;> decide +kernel

end H800
