import Verif.Props.LastWords
import Verif.Props.Options
import Verif.Props.CommandTools
import Verif.Props.Text
import Verif.Spec.Help
import Verif.Lemmas.Named

/-!
Properties C210, C211: the help of the tools.
-/

namespace H800

open Spec

theorem foldl_max_le (l : List Nat) : ∀ a n, a ≤ n → (∀ x ∈ l, x ≤ n) → l.foldl max a ≤ n := by
  induction l with
  | nil => intro a n h _; exact h
  | cons x l ih =>
    intro a n h hx
    exact ih _ n (max_le h (hx x List.mem_cons_self)) fun y hy => hx y (List.mem_cons_of_mem _ hy)

theorem le_foldl_max (l : List Nat) : ∀ a, a ≤ l.foldl max a ∧ ∀ x ∈ l, x ≤ l.foldl max a := by
  induction l with
  | nil => intro a; exact ⟨le_refl _, by simp⟩
  | cons x l ih =>
    intro a
    obtain ⟨h1, h2⟩ := ih (max a x)
    refine ⟨le_trans (le_max_left _ _) h1, ?_⟩
    intro y hy
    rcases List.mem_cons.1 hy with rfl | hy
    · exact le_trans (le_max_right _ _) h1
    · exact h2 y hy

theorem helpPosition_fits {opts : List Opt} (h : ∀ o ∈ opts, o.strings.length ≤ 20) (o : Opt)
    (ho : o ∈ opts) : o.strings.length ≤ helpPosition opts - 2 - 2 := by
  unfold helpPosition
  have h1 := (le_foldl_max (opts.map fun o => o.strings.length + 2) 0).2 _
    (List.mem_map_of_mem (f := fun o : Opt => o.strings.length + 2) ho)
  have h2 := foldl_max_le (opts.map fun o => o.strings.length + 2) 0 22 (by omega) (by
    intro x hx
    obtain ⟨p, hp, rfl⟩ := List.mem_map.1 hx
    have := h p hp
    omega)
  omega

/-- The text of one option is one line. -/
theorem formatOption_line {pos : Nat} {o : Opt} {what : Str} (h : o.strings.length ≤ pos - 2 - 2)
    (hp : 4 ≤ pos) :
    ∃ line, formatOption pos o what = line ++ ['\n'] ∧ OptLine pos o.short o.long what line := by
  unfold formatOption
  rw [if_neg (by omega)]
  have hl : o.strings.length = o.short.length + 2 + o.long.length := by
    simp [Opt.strings]; omega
  refine ⟨py "  " ++ o.strings ++ List.replicate (pos - 2 - 2 - o.strings.length + 2) ' ' ++ what, ?_,
    pos - 2 - 2 - o.strings.length + 2, by omega, ?_, ?_⟩
  · rw [List.replicate_add]
    simp [List.append_assoc]
  · simp [Opt.strings, List.append_assoc]
  · simp only [List.length_append, List.length_replicate, List.length_cons, List.length_nil]
    omega

/-- What is required of the tables of a tool. -/
def GoodHelp (opts : List Opt) (helps : List Str) : Prop :=
  opts.length = helps.length ∧ (∀ o ∈ opts, o.strings.length ≤ 20 ∧
    (∀ c ∈ o.short, c ≠ ' ' ∧ c ≠ ',' ∧ c ≠ '\n') ∧ (∀ c ∈ o.long, c ≠ ' ' ∧ c ≠ ',' ∧ c ≠ '\n')) ∧
  ∀ h ∈ helps, '\n' ∉ h ∧ h.head? ≠ some ' ' ∧ h.length ≤ helpWidth opts

instance (opts : List Opt) (helps : List Str) : Decidable (GoodHelp opts helps) := by
  unfold GoodHelp; infer_instance

theorem tools_goodHelp : ∀ t ∈ TOOL_HELPS, GoodHelp t.2.1 t.2.2 ∧ GoodOpts t.2.1 := by
  obtain ⟨g1, g2, g3, g4, g5, g6, g7⟩ := C153_good
  intro t ht
  refine ⟨?_, ?_⟩
  · revert t; decide +kernel
  · simp only [TOOL_HELPS, List.mem_cons, List.not_mem_nil, or_false] at ht
    rcases ht with rfl | rfl | rfl | rfl | rfl | rfl | rfl | rfl <;> assumption

theorem tools_usage : List.Forall₂ (fun t synopsis => ∀ prog, usageText prog t.1 =
    py "Usage: " ++ prog ++ py " " ++ synopsis ++ py "\n\n") TOOL_HELPS SYNOPSES := by
  unfold TOOL_HELPS SYNOPSES
  refine .cons ?_ (.cons ?_ (.cons ?_ (.cons ?_ (.cons ?_ (.cons ?_ (.cons ?_ (.cons ?_ .nil))))))) <;>
    intro prog <;>
    simp [usageText, FILES_USAGE, LIST_USAGE, FIND_USAGE, GENLINES_USAGE, GENPAGES_USAGE, hasPrefix,
      replaceAux]

theorem optLine_newline {column : Nat} {s l what line : Str} (h : OptLine column s l what line)
    (hs : '\n' ∉ s) (hl : '\n' ∉ l) (hw : '\n' ∉ what) : '\n' ∉ line := by
  obtain ⟨gap, -, rfl, -⟩ := h
  simp [List.mem_replicate, hs, hl, hw]

/-- The lines about the options. -/
theorem option_lines {pos : Nat} (hp : 4 ≤ pos) : ∀ (opts : List Opt) (helps : List Str),
    opts.length = helps.length → (∀ o ∈ opts, o.strings.length ≤ pos - 2 - 2) →
    (∀ o ∈ opts, '\n' ∉ o.short ∧ '\n' ∉ o.long) → (∀ h ∈ helps, '\n' ∉ h) →
    ∃ ls, LinesOf (List.zipWith (formatOption pos) opts helps).flatten (ls.map (· ++ ['\n'])) ∧
      List.Forall₂ (fun oh line => OptLine pos oh.1.short oh.1.long oh.2 line) (opts.zip helps) ls
  | [], [], _, _, _, _ => ⟨[], .nil, .nil⟩
  | [], _ :: _, h, _, _, _ => by cases h
  | _ :: _, [], h, _, _, _ => by cases h
  | o :: opts, what :: helps, h, hl, hn, hw => by
    obtain ⟨ls, h1, h2⟩ := option_lines hp opts helps (by simpa using h)
      (fun p hp => hl p (List.mem_cons_of_mem _ hp)) (fun p hp => hn p (List.mem_cons_of_mem _ hp))
      (fun p hp => hw p (List.mem_cons_of_mem _ hp))
    obtain ⟨line, e, h3⟩ := formatOption_line (what := what) (hl o List.mem_cons_self) hp
    have hline := optLine_newline h3 (hn o List.mem_cons_self).1 (hn o List.mem_cons_self).2
      (hw what List.mem_cons_self)
    refine ⟨line :: ls, ?_, .cons h3 h2⟩
    simp only [List.zipWith_cons_cons, List.flatten_cons, e, List.map_cons, List.append_assoc]
    exact .line hline h1

theorem helpText_lines {prog usage synopsis : Str} {opts : List Opt} {helps : List Str}
    (hu : usageText prog usage = py "Usage: " ++ prog ++ py " " ++ synopsis ++ py "\n\n")
    (hg : GoodHelp opts helps) (hp : '\n' ∉ prog) (hs : '\n' ∉ synopsis) :
    ∃ ls, LinesOf (helpText prog usage opts helps)
        ((py "Usage: " ++ prog ++ py " " ++ synopsis ++ py "\n") :: py "\n" :: py "Options:\n" ::
          ls.map (· ++ ['\n'])) ∧
      List.Forall₂ (fun oh line => OptLine (helpPosition opts) oh.1.short oh.1.long oh.2 line)
        (opts.zip helps) ls := by
  obtain ⟨g1, g2, g3⟩ := hg
  obtain ⟨ls, h1, h2⟩ : ∃ ls, LinesOf
      (List.zipWith (formatOption (helpPosition opts)) opts helps).flatten (ls.map (· ++ ['\n'])) ∧
      List.Forall₂ (fun oh line => OptLine (helpPosition opts) oh.1.short oh.1.long oh.2 line)
        (opts.zip helps) ls := by
    rcases opts with _ | ⟨o, opts⟩
    · exact ⟨[], by cases helps <;> exact .nil, .nil⟩
    · refine option_lines ?_ _ _ g1 (helpPosition_fits fun o ho => (g2 o ho).1)
        (fun p hp => ⟨fun h => ((g2 p hp).2.1 _ h).2.2 rfl, fun h => ((g2 p hp).2.2 _ h).2.2 rfl⟩)
        fun h hh => (g3 h hh).1
      have h1 := (le_foldl_max ((o :: opts).map fun o => o.strings.length + 2) 0).2 _ List.mem_cons_self
      simp only at h1
      unfold helpPosition
      omega
  refine ⟨ls, ?_, h2⟩
  have e : helpText prog usage opts helps = (py "Usage: " ++ prog ++ py " " ++ synopsis) ++ '\n' ::
      ([] ++ '\n' :: (py "Options:" ++ '\n' ::
        (List.zipWith (formatOption (helpPosition opts)) opts helps).flatten)) := by
    simp [helpText, hu]
  rw [e]
  have := LinesOf.line (l := py "Usage: " ++ prog ++ py " " ++ synopsis) (by simp [hp, hs])
    (.line (l := []) (by simp) (.line (l := py "Options:") (by simp) h1))
  simpa using this

/-- C210: the lines of the help of every tool: how it is called, an empty line, `Options:`, and one line
for each option, in the order in which they are given to the parser, with the text for it. These texts
begin in the same column. -/
theorem C210_text : List.Forall₂ (fun t synopsis => ∀ prog, '\n' ∉ prog →
    ∃ column ls, LinesOf (helpText prog t.1 t.2.1 t.2.2)
        ((py "Usage: " ++ prog ++ py " " ++ synopsis ++ py "\n") :: py "\n" :: py "Options:\n" ::
          ls.map (· ++ ['\n'])) ∧ t.2.1.length = t.2.2.length ∧
      List.Forall₂ (fun oh line => OptLine column oh.1.short oh.1.long oh.2 line)
        (t.2.1.zip t.2.2) ls) TOOL_HELPS SYNOPSES := by
  have hs : ∀ s ∈ SYNOPSES, '\n' ∉ s := by decide
  have h := List.forall₂_iff_zip.1 tools_usage
  refine List.forall₂_iff_zip.2 ⟨h.1, fun {t s} hts prog hp => ?_⟩
  obtain ⟨ht, hs'⟩ := List.of_mem_zip hts
  have hg := (tools_goodHelp t ht).1
  obtain ⟨ls, h1, h2⟩ := helpText_lines (h.2 hts prog) hg hp (hs s hs')
  exact ⟨_, ls, h1, hg.1, h2⟩

theorem cut_unique {c : Char} : ∀ {a b r r' : Str}, c ∉ a → c ∉ b →
    a ++ c :: r = b ++ c :: r' → a = b ∧ r = r'
  | [], [], _, _, _, _, h => ⟨rfl, by simpa using h⟩
  | [], y :: b, _, _, _, hb, h => by
    simp only [List.nil_append, List.cons_append, List.cons.injEq] at h
    exact absurd (h.1 ▸ List.mem_cons_self) hb
  | x :: a, [], _, _, ha, _, h => by
    simp only [List.nil_append, List.cons_append, List.cons.injEq] at h
    exact absurd (h.1 ▸ List.mem_cons_self) ha
  | x :: a, y :: b, _, _, ha, hb, h => by
    simp only [List.cons_append, List.cons.injEq] at h
    obtain ⟨h1, h2⟩ := cut_unique (fun h' => ha (List.mem_cons_of_mem _ h'))
      (fun h' => hb (List.mem_cons_of_mem _ h')) h.2
    exact ⟨by rw [h.1, h1], h2⟩

theorem optLine_unique {c c' : Nat} {s l w s' l' w' line : Str} (h : OptLine c s l w line)
    (h' : OptLine c' s' l' w' line) (hs : ',' ∉ s) (hs' : ',' ∉ s') (hl : ' ' ∉ l) (hl' : ' ' ∉ l') :
    s = s' ∧ l = l' := by
  obtain ⟨g, hg, rfl, -⟩ := h
  obtain ⟨g', hg', e, -⟩ := h'
  obtain ⟨g, rfl⟩ : ∃ k, g = k + 1 := ⟨g - 1, by omega⟩
  obtain ⟨g', rfl⟩ : ∃ k, g' = k + 1 := ⟨g' - 1, by omega⟩
  simp only [List.append_assoc, List.replicate_succ, List.cons_append, List.nil_append,
    List.cons.injEq, true_and] at e
  obtain ⟨e1, e2⟩ := cut_unique hs hs' e
  rw [List.cons.injEq] at e2
  exact ⟨e1, (cut_unique hl hl' e2.2).1⟩

/-- C210: an option is shown in the help of a tool exactly if the tool has it, with these two spellings. -/
theorem C210_shown (t : Str × List Opt × List Str) (ht : t ∈ TOOL_HELPS) (prog s l : Str)
    (hp : '\n' ∉ prog) :
    ShowsOption (helpText prog t.1 t.2.1 t.2.2) s l ↔ ∃ o ∈ t.2.1, o.short = s ∧ o.long = l := by
  obtain ⟨i, hi, rfl⟩ := List.getElem_of_mem ht
  have hx := List.forall₂_iff_get.1 C210_text
  obtain ⟨column, ls, h1, h2, h3⟩ := hx.2 i hi (hx.1 ▸ hi) prog hp
  simp only [List.get_eq_getElem] at h1 h2 h3
  have hg := (tools_goodHelp _ ht).1
  generalize TOOL_HELPS[i] = t at *
  constructor
  · rintro ⟨lines, line, c, w, hl, hm, ho, hs, hl'⟩
    have e := (linesOf_readlines hl).symm.trans (linesOf_readlines h1)
    subst e
    have hd : ∃ r, line = ' ' :: r := by
      obtain ⟨g, -, rfl, -⟩ := ho
      exact ⟨_, rfl⟩
    obtain ⟨r, hr⟩ := hd
    rcases List.mem_cons.1 hm with hm | hm
    · rw [hr] at hm; simp at hm
    rcases List.mem_cons.1 hm with hm | hm
    · rw [hr] at hm; simp at hm
    rcases List.mem_cons.1 hm with hm | hm
    · rw [hr] at hm; simp at hm
    obtain ⟨line', hm', e⟩ := List.mem_map.1 hm
    obtain rfl : line' = line := by simpa using e
    obtain ⟨j, hj, rfl⟩ := List.getElem_of_mem hm'
    have h3' := List.forall₂_iff_get.1 h3
    have hz := h3'.2 j (h3'.1 ▸ hj) hj
    simp only [List.get_eq_getElem] at hz
    have hmem := List.of_mem_zip (List.getElem_mem (h3'.1 ▸ hj : j < (t.2.1.zip t.2.2).length))
    obtain ⟨-, g1, g2⟩ := hg.2.1 _ hmem.1
    obtain ⟨e1, e2⟩ := optLine_unique hz ho (fun h => (g1 _ h).2.1 rfl) (fun h => (hs _ h).2 rfl)
      (fun h => (g2 _ h).1 rfl) fun h => (hl' _ h).1 rfl
    exact ⟨_, hmem.1, e1, e2⟩
  · rintro ⟨o, ho, rfl, rfl⟩
    obtain ⟨j, hj, rfl⟩ := List.getElem_of_mem ho
    have h3' := List.forall₂_iff_get.1 h3
    have hj' : j < (t.2.1.zip t.2.2).length := by simp; omega
    have hz := h3'.2 j hj' (h3'.1 ▸ hj')
    simp only [List.get_eq_getElem, List.getElem_zip] at hz
    obtain ⟨-, g1, g2⟩ := hg.2.1 _ ho
    exact ⟨_, ls[j]'(h3'.1 ▸ hj'), _, _, h1,
      List.mem_cons_of_mem _ (List.mem_cons_of_mem _ (List.mem_cons_of_mem _
        (List.mem_map_of_mem (List.getElem_mem _)))), hz,
      fun c hc => ⟨(g1 c hc).1, (g1 c hc).2.1⟩, fun c hc => ⟨(g2 c hc).1, (g2 c hc).2.1⟩⟩

theorem process_such {β : Type} (o : Opt) (v : Dict Str Bool) (w : Str)
    (f : Dict Str Bool → Except OptExit (Dict Str Bool × β))
    (hf : ∀ v, ∃ x, f v = .ok x := by exact fun _ => ⟨_, rfl⟩) :
    (match o.process v with
      | .error e => Except.error e
      | .ok v => f v) ≠ Except.error (OptExit.noSuch w) := by
  rcases o with ⟨a, b, _ | d⟩
  · simp [Opt.process]
  · obtain ⟨x, hx⟩ := hf (dset v d true)
    simp [Opt.process, hx]

theorem find_long {opts : List Opt} {l : Str} (h : l ∈ opts.map (·.long)) :
    ∃ o ∈ opts, opts.find? (fun o => o.long = l) = some o ∧ o.long = l := by
  cases hf : opts.find? (fun o => o.long = l) with
  | none =>
    obtain ⟨o, ho, rfl⟩ := List.mem_map.1 h
    have := List.find?_eq_none.1 hf o ho
    simp at this
  | some o => exact ⟨o, List.mem_of_find?_eq_some hf, rfl, by simpa using List.find?_some hf⟩

/-- C210: the lines of the help of every tool say of each option what it is for. -/
theorem C210_explains : List.Forall₂ (fun t said => ∀ prog, '\n' ∉ prog → ∀ l what, (l, what) ∈ said →
    ∃ lines line column s, LinesOf (helpText prog t.1 t.2.1 t.2.2) lines ∧ line ++ ['\n'] ∈ lines ∧
      OptLine column s l what line) TOOL_HELPS EXPLAINED := by
  have key : List.Forall₂ (fun t said => ∀ x ∈ said, x ∈ (t.2.1.zip t.2.2).map fun oh => (oh.1.long, oh.2))
      TOOL_HELPS EXPLAINED := by
    unfold TOOL_HELPS EXPLAINED
    repeat' constructor
    all_goals decide +kernel
  have h := C210_text
  revert h key
  generalize TOOL_HELPS = ts
  generalize SYNOPSES = ss
  generalize EXPLAINED = es
  intro key h
  induction key generalizing ss with
  | nil => exact .nil
  | cons hk _ ih =>
    cases h with
    | cons h1 h2 =>
      refine .cons (fun prog hp l what hm => ?_) (ih _ h2)
      obtain ⟨column, ls, hl, -, hf⟩ := h1 prog hp
      obtain ⟨⟨o, w⟩, ho, e⟩ := List.mem_map.1 (hk _ hm)
      cases e
      obtain ⟨i, hi, e⟩ := List.getElem_of_mem ho
      have := hf.get hi (hf.length_eq ▸ hi)
      refine ⟨_, ls[i]'(hf.length_eq ▸ hi), column, o.short, hl, ?_, ?_⟩
      · simp
      · have h' := this
        simp only [List.get_eq_getElem, e] at h'
        exact h'

/-- C210: a letter is taken as an option exactly if it is shown in the help; a name exactly if it is the
beginning of a name shown in the help. -/
theorem C210_taken (t : Str × List Opt × List Str) (ht : t ∈ TOOL_HELPS) (prog : Str)
    (hp : '\n' ∉ prog) :
    (∀ c, c ≠ '-' → (parseArgs t.2.1 [['-', c]] ≠ .error (.noSuch ['-', c]) ↔
      ∃ l, ShowsOption (helpText prog t.1 t.2.1 t.2.2) ['-', c] l)) ∧
    ∀ n : Str, n ≠ [] → '=' ∉ n →
      (parseArgs t.2.1 ['-' :: '-' :: n] ≠ .error (.noSuch ('-' :: '-' :: n)) ↔
        ∃ s l, ShowsOption (helpText prog t.1 t.2.1 t.2.2) s l ∧ '-' :: '-' :: n <+: l) := by
  simp only [C210_shown t ht prog _ _ hp]
  generalize t.2.1 = opts
  constructor
  · intro c hc
    have e : parseArgs opts [['-', c]] = match opts.find? (fun o => o.short = ['-', c]) with
        | none => .error (.noSuch ['-', c])
        | some o => match o.process (defaultValues opts) with
          | .error e => .error e
          | .ok v => .ok (v, []) := by
      have h1 : hasPrefix (py "--") ['-', c] = false := by
        simp [hasPrefix, List.isPrefixOf, Ne.symm hc]
      have h2 : (['-', c] : Str) ≠ py "--" := by simp [hc]
      simp only [parseArgs, processArgs, if_neg h2, h1, Bool.false_eq_true, if_false]
      rw [if_pos (by simp [hasPrefix])]
      simp only [List.drop_succ_cons, List.drop_zero, processShort]
      cases opts.find? (fun o => o.short = ['-', c]) with
      | none => rfl
      | some o => simp only; cases o.process (defaultValues opts) <;> rfl
    rw [e]
    cases hf : opts.find? (fun o => o.short = ['-', c]) with
    | none =>
      simp only [ne_eq, not_true_eq_false, false_iff]
      rintro ⟨l, o, ho, h1, -⟩
      have := List.find?_eq_none.1 hf o ho
      simp [h1] at this
    | some o =>
      have h1 := List.find?_some hf
      have h2 := List.mem_of_find?_eq_some hf
      simp only [decide_eq_true_eq] at h1
      refine ⟨fun _ => ⟨_, o, h2, h1, rfl⟩, fun _ => ?_⟩
      exact process_such o _ _ (fun v => .ok (v, []))
  · intro n hn he
    have hc : ('-' :: '-' :: n : Str).contains '=' = false := by
      simp [he]
    have e : parseArgs opts ['-' :: '-' :: n] =
        match processLong opts ('-' :: '-' :: n) (defaultValues opts) with
        | .error e => .error e
        | .ok v => .ok (v, []) := by
      have h2 : ('-' :: '-' :: n : Str) ≠ py "--" := by simp [hn]
      have h1 : hasPrefix (py "--") ('-' :: '-' :: n) = true := by simp [hasPrefix]
      simp only [parseArgs, processArgs, if_neg h2, h1, if_true]
      rfl
    rw [e]
    simp only [processLong, hc, Bool.false_eq_true, if_false, matchAbbrev]
    set w : Str := '-' :: '-' :: n
    have hall : ∀ l ∈ (opts.map (·.long)).filter (hasPrefix w), l ∈ opts.map (·.long) ∧ w <+: l := by
      intro l hl
      exact ⟨(List.mem_filter.1 hl).1, hasPrefix_prefix.1 (List.mem_filter.1 hl).2⟩
    by_cases hw : (opts.map (·.long)).contains w
    · rw [if_pos hw]
      obtain ⟨o, ho, hf, hl⟩ := find_long (List.contains_iff_mem.1 hw)
      simp only [hf]
      exact ⟨fun _ => ⟨_, _, ⟨o, ho, rfl, rfl⟩, hl ▸ List.prefix_rfl⟩,
        fun _ => process_such o _ _ (fun v => .ok (v, []))⟩
    · rw [if_neg hw]
      rcases hfil : (opts.map (·.long)).filter (hasPrefix w) with _ | ⟨l, _ | ⟨l', ls⟩⟩
      · simp only [hfil, ne_eq, not_true_eq_false, false_iff]
        rintro ⟨s, l, ⟨o, ho, -, rfl⟩, hpre⟩
        have : o.long ∈ (opts.map (·.long)).filter (hasPrefix w) :=
          List.mem_filter.2 ⟨List.mem_map_of_mem (f := fun o : Opt => o.long) ho,
            hasPrefix_prefix.2 hpre⟩
        rw [hfil] at this
        cases this
      · obtain ⟨h1, h2⟩ := hall l (hfil ▸ List.mem_cons_self)
        obtain ⟨o, ho, hf, hl⟩ := find_long h1
        simp only [hfil, hf]
        exact ⟨fun _ => ⟨_, _, ⟨o, ho, rfl, rfl⟩, hl ▸ h2⟩,
          fun _ => process_such o _ _ (fun v => .ok (v, []))⟩
      · obtain ⟨h1, h2⟩ := hall l (hfil ▸ List.mem_cons_self)
        obtain ⟨o, ho, rfl⟩ := List.mem_map.1 h1
        simp only [hfil, ne_eq, Except.error.injEq, reduceCtorEq, not_false_eq_true, true_iff]
        exact ⟨_, _, ⟨o, ho, rfl, rfl⟩, h2⟩

theorem means_opts {opts : List Opt} {argv args : List Str} {os : List Opt}
    (h : Means opts argv os args) : ∀ o ∈ os, o ∈ opts := by
  induction h with
  | done => simp
  | stop => simp
  | plain _ _ ih => exact ih
  | letters _ hl _ ih =>
    intro o ho
    rcases List.mem_append.1 ho with ho | ho
    · exact letters_mem hl o ho
    · exact ih o ho
  | name _ hn _ ih =>
    intro o ho
    rcases List.mem_cons.1 ho with rfl | ho
    · exact hn.1
    · exact ih o ho

/-- C210: the help is printed exactly if it is asked for, in any of the ways of asking, and nothing is
wrong with the command line before; the exit status is 0 then. A command line without mistakes that does
not ask for it does not print it. -/
theorem C210_printed (t : Str × List Opt × List Str) (ht : t ∈ TOOL_HELPS) (prog : Str)
    (argv args : List Str) (os : List Opt) (hm : Means t.2.1 argv os args) :
    helpPrinted prog t.1 t.2.1 t.2.2 argv =
      if os.any (fun o => o.short = py "-h") then some (helpText prog t.1 t.2.1 t.2.2) else none := by
  obtain ⟨-, hg⟩ := tools_goodHelp t ht
  have hh : ∀ o ∈ t.2.1, o.dest = none ↔ o.short = py "-h" := by
    clear hm hg
    revert t; decide +kernel
  have hos : ∀ o ∈ os, o ∈ t.2.1 := means_opts hm
  unfold helpPrinted
  rcases means_values hg hm with ⟨⟨o, ho, hd⟩, e⟩ | ⟨hn, v, e, -⟩
  · rw [e, if_pos]
    exact List.any_eq_true.2 ⟨o, ho, by simpa using (hh o (hos o ho)).1 hd⟩
  · rw [e, if_neg]
    rw [Bool.not_eq_true, List.any_eq_false]
    intro o ho hs
    exact hn ⟨o, ho, (hh o (hos o ho)).2 (by simpa using hs)⟩

/-- C210: every text of a help fits on its line, on a page of 80 columns; so none is broken. -/
theorem C210_fit (t : Str × List Opt × List Str) (ht : t ∈ TOOL_HELPS) :
    (∀ o ∈ t.2.1, o.strings.length ≤ helpPosition t.2.1 - 2 - 2) ∧
    helpPosition t.2.1 + helpWidth t.2.1 = 78 ∧
    ∀ h ∈ t.2.2, h.length ≤ helpWidth t.2.1 := by
  revert t; decide +kernel

/-- C210 on the help of check-symbols, and how it is asked for. -/
example : helpText (py "x") FILES_USAGE CHECK_SYMBOLS_OPTS CHECK_SYMBOLS_HELPS =
      py "Usage: x filename [filename]...\n\nOptions:\n" ++
      py "  -h, --help     show this help message and exit\n" ++
      py "  -v, --verbose  Enable verbose output.\n" ++
      py "  -c, --complex  Print errors for any complex-only definitions.\n" ∧
    helpPrinted (py "x") GENPAGES_USAGE NO_OPTS [HELP_HELP] [py "A", py "--he", py "-z"] =
      some (py "Usage: x filename\n\nOptions:\n  -h, --help  show this help message and exit\n") ∧
    helpPrinted (py "x") GENPAGES_USAGE NO_OPTS [HELP_HELP] [py "A", py "-z", py "--he"] = none := by
  decide +kernel

/-- C210: the help of find-symbols and of check-instructions, whatever the tools are called. -/
theorem C210_words (prog : Str) :
    helpText prog FIND_USAGE FIND_SYMBOLS_OPTS FIND_SYMBOLS_HELPS = usageText prog FIND_USAGE ++
      py "Options:\n" ++
      py "  -h, --help     show this help message and exit\n" ++
      py "  -b, --begin    Match symbols that begin with the specified string.\n" ++
      py "  -D, --details  Print details for matching lines.\n" ++
      py "  -e, --end      Match symbols that end with the specified string.\n" ++
      py "  -f, --fuzzy    Fuzzy match symbols with the specified string.\n" ++
      py "  -v, --verbose  Enable verbose output.\n" ++
      py "  -x, --exact    Exact matching. Default is partial.\n" ∧
    helpText prog FILES_USAGE CHECK_INSTRUCTIONS_OPTS CHECK_INSTRUCTIONS_HELPS =
      usageText prog FILES_USAGE ++ py "Options:\n" ++
      py "  -h, --help           show this help message and exit\n" ++
      py "  -a, --all            Check for all errors.\n" ++
      py "  -c, --count          Print opcode frequency count.\n" ++
      py "  -i, --invalid        Check for invalid opcodes.\n" ++
      py "  -p, --print-opcodes  Print all opcodes found.\n" ++
      py "  -s, --sort           Sort by opcode frequency (if --count specified).\n" ++
      py "  -u, --unused         Print unused instructions.\n" ++
      py "  -v, --verbose        Enable verbose output.\n" := by
  have e1 : (List.zipWith (formatOption (helpPosition FIND_SYMBOLS_OPTS)) FIND_SYMBOLS_OPTS
      FIND_SYMBOLS_HELPS).flatten =
      py "  -h, --help     show this help message and exit\n" ++
      py "  -b, --begin    Match symbols that begin with the specified string.\n" ++
      py "  -D, --details  Print details for matching lines.\n" ++
      py "  -e, --end      Match symbols that end with the specified string.\n" ++
      py "  -f, --fuzzy    Fuzzy match symbols with the specified string.\n" ++
      py "  -v, --verbose  Enable verbose output.\n" ++
      py "  -x, --exact    Exact matching. Default is partial.\n" := by decide +kernel
  have e2 : (List.zipWith (formatOption (helpPosition CHECK_INSTRUCTIONS_OPTS)) CHECK_INSTRUCTIONS_OPTS
      CHECK_INSTRUCTIONS_HELPS).flatten =
      py "  -h, --help           show this help message and exit\n" ++
      py "  -a, --all            Check for all errors.\n" ++
      py "  -c, --count          Print opcode frequency count.\n" ++
      py "  -i, --invalid        Check for invalid opcodes.\n" ++
      py "  -p, --print-opcodes  Print all opcodes found.\n" ++
      py "  -s, --sort           Sort by opcode frequency (if --count specified).\n" ++
      py "  -u, --unused         Print unused instructions.\n" ++
      py "  -v, --verbose        Enable verbose output.\n" := by decide +kernel
  rw [helpText, helpText, e1, e2]
  simp only [List.append_assoc, and_self]

/-! ### C211 -/

/-- C211: find-symbols finds the defined symbols that its help says are found. -/
def C211_statement : Prop :=
  ∀ (upper : Str → Str) (extract : Str → List Str → Nat → List Str) (fs : FileSystem) (argv : List Str)
    (os : List Opt) (word : Str) (srcs : List (Str × List Src)), Search fs argv os word srcs →
    ∃ n, ∀ m, n ≤ m → ∀ x, ShowsSymbol upper srcs word x (findSymbolsCmd upper extract fs m argv).1 ↔
      IsDefined upper srcs x ∧ Matching os word x

theorem fileReports_found {upper : Str → Str} {srcs : List (Str × List Src)} {rs : List (List SymMsg)}
    (h : List.Forall₂ (FileReport upper true) srcs rs) (f : Found) : SymMsg.found f ∉ rs.flatten := by
  induction h with
  | nil => simp
  | cons hd _ ih =>
    obtain ⟨ds, -, rfl⟩ := hd
    simp [ih]

/-- C211: it finds the symbols that begin or end with the word if this is asked for, and else the word
itself only. So the help is right with `--begin`, `--end` or `--exact`; without them only the word itself
is found of the symbols in which it occurs. -/
theorem C211_finds_partial (upper : Str → Str) (extract : Str → List Str → Nat → List Str)
    (fs : FileSystem) (argv : List Str) (os : List Opt) (word : Str) (srcs : List (Str × List Src))
    (h : Search fs argv os word srcs) :
    ∃ n, ∀ m, n ≤ m → ∀ x,
      (Given os (py "begin") ∨ Given os (py "end") ∨ Given os (py "exact") →
        (ShowsSymbol upper srcs word x (findSymbolsCmd upper extract fs m argv).1 ↔
          IsDefined upper srcs x ∧ Matching os word x)) ∧
      (¬ (Given os (py "begin") ∨ Given os (py "end") ∨ Given os (py "exact")) →
        (ShowsSymbol upper srcs word x (findSymbolsCmd upper extract fs m argv).1 ↔
          IsDefined upper srcs x ∧ x = word)) := by
  obtain ⟨files, hm, hh, hc, hz, hf, hne, hp, hr⟩ := h
  obtain ⟨n, hn⟩ := (C164_find upper extract fs argv _ os hm hh).2 word files srcs hc rfl hf hne hp hr
  refine ⟨n, fun m hm x => ?_⟩
  obtain ⟨out, rs, tail, e, h1, h2, h3, h4, -⟩ := hn m hm
  rw [e]
  by_cases hbe : Given os (py "begin") ∨ Given os (py "end")
  · have hx : ¬ Given os (py "exact") := by
      intro hx
      rcases hbe with hb | hb
      · exact hc ⟨_, by decide, _, by decide, by decide, hb, hx⟩
      · exact hc ⟨_, by decide, _, by decide, by decide, hb, hx⟩
    obtain ⟨l, -, ht, hl⟩ := h4 hbe
    refine ⟨fun _ => ?_, fun h => absurd (hbe.elim Or.inl fun h => .inr (.inl h)) h⟩
    have hM : Matching os word x ↔ (Given os (py "begin") ∧ ∃ y, x = word ++ y) ∨
        (Given os (py "end") ∧ ∃ y, x = y ++ word) := by
      unfold Matching
      constructor
      · rintro (h | h | h | h)
        · exact .inl h
        · exact .inr h
        · exact absurd h.1 hx
        · exact absurd hbe fun hb => hb.elim h.1 h.2.1
      · rintro (h | h)
        · exact .inl h
        · exact .inr (.inl h)
    rw [hM, ← hl x]
    unfold ShowsSymbol
    simp only [h2, List.mem_append, fileReports_found h1, false_or]
    rw [ht]
    by_cases hl' : l = []
    · simp [hl']
    · rw [if_neg hl']
      simp
  · have hb : ¬ Given os (py "begin") := fun h => hbe (.inl h)
    have he : ¬ Given os (py "end") := fun h => hbe (.inr h)
    have key : ShowsSymbol upper srcs word x out ↔ IsDefined upper srcs x ∧ x = word := by
      unfold ShowsSymbol
      simp only [h2, List.mem_append, fileReports_found h1, false_or]
      rcases h3 hb he hz with ⟨d, rfl, hd⟩ | ⟨rfl, hd⟩
      · simp only [List.mem_singleton, SymMsg.found.injEq, reduceCtorEq, false_and, exists_false, false_or,
          Found.defs.injEq, exists_eq_left]
        constructor
        · rintro ⟨rfl, -⟩
          obtain ⟨⟨k, i, s, tt, seg, sub, kind, hfd⟩, -⟩ := hd
          exact ⟨⟨k, i, s, tt, seg, sub, kind, hfd.1⟩, rfl⟩
        · rintro ⟨-, rfl⟩
          exact ⟨rfl, hd⟩
      · simp only [List.mem_singleton, reduceCtorEq, false_and, exists_false, and_false, or_false, false_iff]
        rintro ⟨h1, rfl⟩
        exact hd h1
    refine ⟨fun hx => ?_, fun _ => key⟩
    · have hM : Matching os word x ↔ x = word := by
        have hx : Given os (py "exact") := hx.elim (fun h => absurd h hb) fun h =>
          h.elim (fun h => absurd h he) id
        unfold Matching
        constructor
        · rintro (h | h | h | h)
          · exact absurd h.1 hb
          · exact absurd h.1 he
          · exact h.2
          · exact absurd hx h.2.2.1
        · exact fun h => .inr (.inr (.inl ⟨hx, h⟩))
      rw [hM]
      exact key

/-- A file that defines the symbol `TAB`. -/
def tabsFs : FileSystem := fun f =>
  if f = py "A.arg" then some (py "        TAB        TN\n") else none

/-- Its line. -/
def tabsA : List Src := [⟨py "A.arg", 1, py "        TAB        TN\n"⟩]

theorem tabsFs_search (word : Str) (hw : PlainArg word) :
    Search tabsFs [word, py "A.arg"] [] word [(py "A.arg", tabsA)] := by
  refine ⟨[py "A.arg"], .plain hw (.plain (Or.inr (by decide)) .done), by simp, ?_, ?_, by simp, by simp,
    ?_, rfl, ?_⟩
  · rintro ⟨d, -, d', -, -, ⟨o, ho, -⟩, -⟩; cases ho
  · rintro ⟨o, ho, -⟩; cases ho
  · rw [plainFiles_iff]
    intro f hf
    simp only [List.mem_cons, List.not_mem_nil, or_false] at hf
    subst hf
    unfold PlainSeg; decide
  · intro p hp
    simp only [List.mem_cons, List.not_mem_nil, or_false] at hp
    subst hp
    refine ⟨_, rfl, ?_⟩
    have : ∀ {text : Str} (ls : List Str), readlines text = ls →
        Expand tabsFs (py "A.arg") 1 ls tabsA →
        Expand tabsFs (py "A.arg") 1 (readlines text) tabsA := fun ls h1 h2 => h1 ▸ h2
    refine this (tabsA.map (·.text)) (by decide) ?_
    exact .plain (by decide) (by decide) (.nil _ _)

/-- It is false: a search for `A` does not find `TAB`. -/
theorem C211_refuted : ¬ C211_statement := by
  intro h
  have hd : IsDefined asciiUpper [(py "A.arg", tabsA)] (py "TAB") := by
    refine ⟨0, 0, tabsA[0], py " ", py "A", py "1", py "simple", _, _, rfl,
      by have := beforeFirst '.' (py "A.arg"); exact this,
      (definesAt_iff _ _ _ _ _ _ _ _).2 ⟨rfl, py "TN", ?_, ?_, ?_⟩⟩ <;> rfl
  obtain ⟨n, hn⟩ := h asciiUpper (fun _ _ _ => []) tabsFs _ _ _ _
    (tabsFs_search (py "A") (Or.inr (by decide)))
  obtain ⟨n', hn'⟩ := C211_finds_partial asciiUpper (fun _ _ _ => []) tabsFs _ _ _ _
    (tabsFs_search (py "A") (Or.inr (by decide)))
  have h1 := (hn (max n n') (le_max_left _ _) (py "TAB")).2 ⟨hd, by
    refine .inr (.inr (.inr ⟨?_, ?_, ?_, py "T", py "B", rfl⟩)) <;>
      (rintro ⟨o, ho, -⟩; cases ho)⟩
  have h2 := (((hn' (max n n') (le_max_right _ _) (py "TAB")).2
    (by rintro (⟨o, ho, -⟩ | ⟨o, ho, -⟩ | ⟨o, ho, -⟩) <;> cases ho)).1 h1).2
  exact absurd h2 (by decide)

end H800
