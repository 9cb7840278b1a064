import Verif.Spec.Documents
import Verif.Props.Manual
import Verif.Props.CheckText
import Verif.Lemmas.Tools

/-!
C191 and C192: the operation codes of cards, as the manual of assembly language has them, and the
instructions the tools see.
-/

namespace H800

open Spec

theorem instructions_spaceless : ∀ i ∈ INSTRUCTIONS, ∀ c ∈ i, isSpace c = false := by decide +kernel

theorem columns_last (t : Str) : columns t 20 33 = columns t 20 32 ++ columns t 32 33 := by
  unfold columns
  have e : (t.drop (32 - 1)) = (t.drop (20 - 1)).drop 12 := by rw [List.drop_drop]
  rw [e]
  show List.take 13 (List.drop 19 t) = List.take 12 (List.drop 19 t) ++ List.take 1 (List.drop 12 (List.drop 19 t))
  generalize List.drop 19 t = u
  rw [show (13 : Nat) = 12 + 1 from rfl, List.take_add]

/-- The instruction of a card is the command code field up to the first comma, stripped. -/
theorem hasInstr_field (s : Src) (i : Str) : HasInstr s i ↔
    ¬ PRL s.text ∧ i ≠ [] ∧ strip (splitFirst (columns s.text 20 33) ',') = i := by
  unfold HasInstr HasOp
  generalize columns s.text 20 33 = F
  constructor
  · rintro ⟨hi, o, p, ⟨hp, ho, ht, a, b, ha, hb, hF⟩, hb1, hs⟩
    refine ⟨hp, hi, ?_⟩
    obtain ⟨hti, a', b', ha', hb', rfl⟩ := hs
    obtain ⟨h1, h2 | ⟨r, h2⟩⟩ := hb1
    · have : splitFirst F ',' = F := splitFirst_id (by
        rw [hF, h2]
        simp only [List.mem_append, not_or] at h1 ⊢
        refine ⟨⟨?_, h1⟩, ?_⟩
        · intro h; exact absurd (ha _ h) (by decide)
        · intro h; exact absurd (hb _ h) (by decide))
      rw [this, hF, h2]
      rw [show a ++ (a' ++ i ++ b') ++ b = (a ++ a') ++ i ++ (b' ++ b) by simp]
      exact strip_of_decomp (by intro c hc; rcases List.mem_append.1 hc with h | h; exact ha c h; exact ha' c h)
        (by intro c hc; rcases List.mem_append.1 hc with h | h; exact hb' c h; exact hb c h) hti
    · have : splitFirst F ',' = a ++ (a' ++ i ++ b') := by
        apply beforeFirst_unique
        refine ⟨?_, Or.inr ⟨r ++ b, ?_⟩⟩
        · simp only [List.mem_append, not_or] at h1 ⊢
          exact ⟨fun h => absurd (ha _ h) (by decide), h1⟩
        · rw [hF, h2]; simp
      rw [this, show a ++ (a' ++ i ++ b') = (a ++ a') ++ i ++ b' by simp]
      exact strip_of_decomp (by intro c hc; rcases List.mem_append.1 hc with h | h; exact ha c h; exact ha' c h)
        hb' hti
  · rintro ⟨hp, hi, hs⟩
    refine ⟨hi, strip F, splitFirst (strip F) ',', ⟨hp, ?_, strip_stripped F⟩, beforeFirst _ _, ?_⟩
    · intro h
      have hb := strip_nil_iff.1 h
      apply hi
      rw [← hs]
      apply strip_nil_iff.2
      intro c hc
      obtain ⟨-, h | ⟨r, h⟩⟩ := beforeFirst ',' F
      · rw [← h] at hc; exact hb c hc
      · exact hb c (by rw [h]; exact List.mem_append_left _ hc)
    · rw [stripped_iff]
      obtain ⟨ht, a, b, ha, hb, hF⟩ := strip_stripped F
      have hdec := strip_stripped (splitFirst (strip F) ',')
      obtain ⟨h1, h2⟩ := beforeFirst ',' (strip F)
      obtain ⟨hti, a', b', ha', hb', hp'⟩ := hdec
      rcases h2 with h2 | ⟨r, h2⟩
      · have : splitFirst F ',' = F := splitFirst_id (by
          rw [hF, h2]
          simp only [List.mem_append, not_or]
          exact ⟨⟨fun h => absurd (ha _ h) (by decide), h1⟩, fun h => absurd (hb _ h) (by decide)⟩)
        rw [this] at hs
        rw [← h2, strip_strip]
        exact hs
      · have : splitFirst F ',' = a ++ splitFirst (strip F) ',' := by
          apply beforeFirst_unique
          refine ⟨?_, Or.inr ⟨r ++ b, ?_⟩⟩
          · simp only [List.mem_append, not_or]
            exact ⟨fun h => absurd (ha _ h) (by decide), h1⟩
          · conv_lhs => rw [hF, h2]
            simp
        rw [this, hp', show a ++ (a' ++ strip (splitFirst (strip F) ',') ++ b') =
          (a ++ a') ++ strip (splitFirst (strip F) ',') ++ b' by simp] at hs
        rw [← hs]
        exact (strip_of_decomp (by intro c hc; rcases List.mem_append.1 hc with h | h; exact ha c h; exact ha' c h)
          hb' hti).symm

/-! ### The lines reported -/

theorem freqLines_only {opts : CheckOpts} {n : Nat} : ∀ {items : List (Str × Nat)} {l : List CheckMsg},
    freqLines opts n items = .ok l → ∀ c, CheckMsg.invalid c ∉ l
  | [], l, h => by
    simp only [freqLines, Except.ok.injEq] at h
    subst h; simp
  | (inst, k) :: rest, l, h => by
    simp only [freqLines] at h
    split at h
    · split at h
      · cases h
      · cases hr : freqLines opts n rest with
        | error e => rw [hr] at h; cases h
        | ok l' =>
          rw [hr] at h
          cases h
          intro c hc
          rcases List.mem_cons.1 hc with hc | hc
          · cases hc
          · exact freqLines_only hr c hc
    · exact freqLines_only h

theorem mem_invalids (c : CodeCard) : ∀ l : List CheckMsg, c ∈ invalids l ↔ CheckMsg.invalid c ∈ l
  | [] => by simp [invalids]
  | m :: l => by
    have ih := mem_invalids c l
    cases m <;> simp [invalids, ih]

/-- The lines of the same file and number are the same. -/
theorem sources_same {fs : FileSystem} {files : List Str} {out : List Src} (h : Sources fs files out)
    {s s' : Src} (hs : s ∈ out) (hs' : s' ∈ out) (hf : s.file = s'.file) (hn : s.num = s'.num) :
    s = s' := by
  obtain ⟨outs, h1, rfl⟩ := h
  have key : ∀ s ∈ outs.flatten, ∃ text', fs s.file = some text' ∧
      (readlines text')[s.num - 1]? = some s.text := by
    intro s hs
    obtain ⟨o, ho, hso⟩ := List.mem_flatten.1 hs
    obtain ⟨i, hi, rfl⟩ := List.mem_iff_getElem.1 ho
    have := h1.get (i := i) (by rw [h1.length_eq]; exact hi) hi
    obtain ⟨t, k1, -, k2, -⟩ := expands_src this s hso
    exact ⟨t, k1, k2⟩
  obtain ⟨t, a1, a2⟩ := key s hs
  obtain ⟨t', b1, b2⟩ := key s' hs'
  rw [hf, b1] at a1
  cases a1
  rw [hn, b2] at a2
  cases s; cases s'
  simp only [Option.some.injEq] at a2
  simp only at hf hn a2
  rw [hf, hn, a2]

open Classical in
/-- What check-instructions reports of the lines it reads. -/
theorem reported_iff {out : List Src} {msgs : List CheckMsg} (h : CheckRun out msgs) {s : Src}
    (hs : s ∈ out) : ReportedIn msgs s ↔ BadInstr s := by
  obtain ⟨fs, fuel, opts, files, hsrc, h⟩ := h
  unfold checkInstructions at h
  split at h
  · cases h
  cases hst : checkFiles fs fuel opts files CheckState.init with
  | error e => rw [hst] at h; cases h
  | ok st =>
    rw [hst] at h
    obtain ⟨out', ho', -, -, -, -, -, hinv⟩ := C80_counts fs fuel opts files st hst
    obtain rfl := sources_unique ho' hsrc
    have hmem : ∀ c, CheckMsg.invalid c ∈ msgs ↔ c ∈ invalids st.out := by
      intro c
      rw [mem_invalids]
      change checkReport opts st = .ok msgs at h
      unfold checkReport at h
      cases hc : opts.count <;> simp only [hc] at h
      · cases h
        cases opts.unused <;> simp
      · cases hfl : freqLines opts st.instrcount
          (if opts.sort then freqtab st.instrtab else byName st.instrtab) with
        | error e => rw [hfl] at h; cases h
        | ok l =>
          rw [hfl] at h
          cases h
          have := freqLines_only hfl c
          cases opts.unused <;> simp [this]
    constructor
    · rintro ⟨c, hc, hf, hl⟩
      have : (c.file, c.line, c.text) ∈ (invalids st.out).map (fun c => (c.file, c.line, c.text)) :=
        List.mem_map.2 ⟨c, (hmem c).1 hc, rfl⟩
      rw [hinv] at this
      obtain ⟨s', hs', e⟩ := List.mem_map.1 this
      simp only [Prod.mk.injEq] at e
      obtain ⟨hm', hb⟩ := List.mem_filter.1 hs'
      have : s' = s := sources_same ho' hm' hs (by
        have := e.1.trans hf
        simpa using this) (by
        have := e.2.1.trans hl
        exact_mod_cast this)
      subst this
      simpa using hb
    · intro hb
      have : (some s.file, (s.num : Int), s.text.filter (· ≠ '\n')) ∈
          (invalids st.out).map (fun c => (c.file, c.line, c.text)) := by
        rw [hinv]
        exact List.mem_map.2 ⟨s, List.mem_filter.2 ⟨hs, by simpa using hb⟩, rfl⟩
      obtain ⟨c, hc, e⟩ := List.mem_map.1 this
      simp only [Prod.mk.injEq] at e
      exact ⟨c, (hmem c).2 hc, e.1, e.2.1⟩

theorem unbroken_instr (s : Src) (m : Str) (h : ManualOp s m) (hu : Unbroken s m)
    (hd : ¬ Designated s ∨ ',' ∈ columns s.text 20 32) : HasInstr s m := by
  obtain ⟨hp, hne, hb⟩ := h
  have hmem : ∀ c ∈ m, isSpace c = false ∧ c ≠ ',' := by
    intro c hc
    refine ⟨?_, fun e => hb.1 (e ▸ hc)⟩
    have : c ∈ (columns s.text 20 32).filter fun c => ¬ isSpace c := by
      rcases hb.2 with h | ⟨r, h⟩ <;> rw [h]
      · exact hc
      · exact List.mem_append_left _ hc
    simpa using (List.mem_filter.1 this).2
  have htr : Trimmed m := by
    constructor
    · intro c hc; exact (hmem c (List.mem_of_mem_head? hc)).1
    · intro c hc; exact (hmem c (List.mem_of_getLast? hc)).1
  · rw [hasInstr_field]
    refine ⟨hp, hne, ?_⟩
    rw [columns_last]
    obtain ⟨a, r, hF, ha, hr⟩ := hu
    have nc : ∀ {x : Str}, Blank x → ',' ∉ x := fun hx h => absurd (hx _ h) (by decide)
    have ncm : ',' ∉ m := hb.1
    rcases hr with hr | ⟨b, r', hbb, rfl⟩
    · have hd' : Blank (columns s.text 32 33) := by
        rcases hd with hd | hd
        · intro c hc
          by_contra hcon
          exact hd ⟨c, hc, by simpa using hcon⟩
        · exfalso
          rw [hF] at hd
          simp only [List.mem_append] at hd
          rcases hd with (h | h) | h
          · exact nc ha h
          · exact ncm h
          · exact nc hr h
      rw [hF, splitFirst_id (by
        simp only [List.mem_append, not_or]
        exact ⟨⟨⟨nc ha, ncm⟩, nc hr⟩, nc hd'⟩)]
      rw [List.append_assoc]
      exact strip_of_decomp ha (by
        intro c hc; rcases List.mem_append.1 hc with h | h; exact hr c h; exact hd' c h) htr
    · have : splitFirst (columns s.text 20 32 ++ columns s.text 32 33) ',' = a ++ m ++ b := by
        apply beforeFirst_unique
        refine ⟨?_, Or.inr ⟨r' ++ columns s.text 32 33, by rw [hF]; simp⟩⟩
        simp only [List.mem_append, not_or]
        exact ⟨⟨nc ha, ncm⟩, nc hbb⟩
      rw [this]
      exact strip_of_decomp ha hbb htr

theorem hasInstr_bad {s : Src} {m : Str} (h : HasInstr s m) : BadInstr s ↔ ¬ Starred s ∧ m ∉ INSTRUCTIONS := by
  constructor
  · rintro ⟨hs, i, hi, hni⟩
    rw [hasInstr_field] at h hi
    rw [h.2.2] at hi
    exact ⟨hs, hi.2.2 ▸ hni⟩
  · rintro ⟨hs, hm⟩
    exact ⟨hs, m, h, hm⟩

theorem gap_bad (s : Src) (hs : ¬ Starred s) (hp : ¬ PRL s.text) (h : Gap s) : BadInstr s := by
  obtain ⟨x, y, g, z, w, hF, hx, hy, hz, hys, hzs, hg, hgb⟩ := h
  obtain ⟨sp, hsp⟩ := List.exists_mem_of_ne_nil g hg
  -- the part before the first comma
  have key : ∃ w', splitFirst (columns s.text 20 33) ',' = x ++ y :: (g ++ z :: w') := by
    have e : columns s.text 20 33 = (x ++ y :: (g ++ [z])) ++ w := by rw [hF]; simp
    refine ⟨splitFirst w ',', ?_⟩
    apply beforeFirst_unique
    obtain ⟨h1, h2⟩ := beforeFirst ',' w
    constructor
    · simp only [List.mem_append, List.mem_cons, not_or]
      exact ⟨hx, fun e => hy e.symm, fun h => absurd (hgb _ h) (by decide), fun e => hz e.symm, h1⟩
    · rcases h2 with h2 | ⟨r, h2⟩
      · left; rw [← h2, hF]
      · right
        refine ⟨r, ?_⟩
        rw [hF]
        conv_lhs => rw [h2]
        simp
  obtain ⟨w', hw'⟩ := key
  obtain ⟨ht, a, b, ha, hb, hd⟩ := strip_stripped (splitFirst (columns s.text 20 33) ',')
  set i := strip (splitFirst (columns s.text 20 33) ',') with hi
  rw [hw'] at hd
  have hmem : sp ∈ i := by
    -- what is cut off on the left ends before `y`, on the right begins after `z`
    have e1 : x ++ y :: (g ++ z :: w') = a ++ (i ++ b) := by rw [hd]; simp
    obtain ⟨t, h1⟩ : ∃ t, x = a ++ t := by
      rcases List.append_eq_append_iff.1 e1 with ⟨t, h1, h2⟩ | ⟨t, h1, h2⟩
      · cases t with
        | nil => exact ⟨[], by simpa using h1.symm⟩
        | cons c t =>
          rw [List.cons_append, List.cons.injEq] at h2
          obtain ⟨rfl, -⟩ := h2
          have := ha y (by rw [h1]; simp)
          rw [hys] at this; cases this
      · exact ⟨t, h1⟩
    rw [h1, List.append_assoc, List.append_cancel_left_eq] at e1
    have e2 : (t ++ y :: g) ++ z :: w' = i ++ b := by rw [← e1]; simp
    rcases List.append_eq_append_iff.1 e2 with ⟨u, h3, h4⟩ | ⟨u, h3, h4⟩
    · rw [h3]; simp [hsp]
    · have : isSpace z = true := hb z (by rw [h4]; simp)
      rw [hzs] at this; cases this
  refine ⟨hs, i, (hasInstr_field s i).2 ⟨hp, List.ne_nil_of_mem hmem, rfl⟩, fun hk => ?_⟩
  have := instructions_spaceless i hk sp hmem
  rw [hgb sp hsp] at this
  cases this

theorem designated_bad (s : Src) (m : Str) (hs : ¬ Starred s) (h : ManualOp s m)
    (hc : ',' ∉ columns s.text 20 32) (g : Str) (sp : Char) (hg : columns s.text 20 32 = g ++ [sp])
    (hsp : isSpace sp = true) (c : Char) (hd : columns s.text 32 33 = [c]) (hcs : isSpace c = false)
    (hcc : c ≠ ',') : BadInstr s := by
  obtain ⟨hp, hne, hb⟩ := h
  -- the last character of the group that is not a space
  obtain ⟨ht, a, b, ha, hbb, hd'⟩ := strip_stripped (columns s.text 20 32)
  have hn : strip (columns s.text 20 32) ≠ [] := by
    intro h
    have hbl := strip_nil_iff.1 h
    apply hne
    have : (columns s.text 20 32).filter (fun c => ¬ isSpace c) = [] := by
      rw [List.filter_eq_nil_iff]
      intro c hc
      simp [hbl c hc]
    rw [this] at hb
    rcases hb.2 with h | ⟨r, h⟩
    · exact h.symm
    · exact absurd h.symm (by simp)
  generalize strip (columns s.text 20 32) = o at *
  obtain ⟨x, y, rfl⟩ : ∃ x y, o = x ++ [y] := ⟨o.dropLast, o.getLast hn, (List.dropLast_append_getLast hn).symm⟩
  have hb0 : b ≠ [] := by
    rintro rfl
    rw [List.append_nil, ← List.append_assoc] at hd'
    rw [hg] at hd'
    obtain ⟨-, e⟩ := List.append_inj' hd' rfl
    have := ht.2 y (by simp)
    cases e
    rw [hsp] at this; cases this
  apply gap_bad s hs hp
  refine ⟨a ++ x, y, b, c, [], ?_, ?_, ?_, hcc, ht.2 y (by simp), hcs, hb0, hbb⟩
  · rw [columns_last, hd, hd']; simp
  · intro h; exact hc (by rw [hd']; simp only [List.mem_append] at h ⊢; tauto)
  · rintro rfl; exact hc (by rw [hd']; simp)

/-- C191, the property as stated: a line whose operation code, read as the manual says, is a known
instruction is not reported. -/
def C191_statement : Prop :=
  ∀ out msgs, CheckRun out msgs → ∀ s ∈ out, ∀ m, ManualOp s m → m ∈ INSTRUCTIONS → ¬ ReportedIn msgs s

/-- C191, what holds: for an operation code that is written without gap, if no counter is designated or
there is a comma before the designation, the line is reported exactly if the code is not known. -/
theorem C191_unbroken_partial (out : List Src) (msgs : List CheckMsg) (hr : CheckRun out msgs) (s : Src)
    (hs : s ∈ out) (h8 : ¬ Starred s) (m : Str) (h : ManualOp s m) (hu : Unbroken s m)
    (hd : ¬ Designated s ∨ ',' ∈ columns s.text 20 32) : ReportedIn msgs s ↔ m ∉ INSTRUCTIONS := by
  rw [reported_iff hr hs, hasInstr_bad (unbroken_instr s m h hu hd)]
  exact ⟨fun h => h.2, fun h => ⟨h8, h⟩⟩

/-- C191: a line with a gap in the command code field before any comma is reported, whatever the
operation code is. -/
theorem C191_gap_partial (out : List Src) (msgs : List CheckMsg) (hr : CheckRun out msgs) (s : Src)
    (hs : s ∈ out) (h8 : ¬ Starred s) (hp : ¬ PRL s.text) (h : Gap s) : ReportedIn msgs s :=
  (reported_iff hr hs).2 (gap_bad s h8 hp h)

/-- C191: a line without comma in the command code group, of which the last column is blank, is reported
if a counter is designated, whatever the operation code is. -/
theorem C191_designated_partial (out : List Src) (msgs : List CheckMsg) (hr : CheckRun out msgs) (s : Src)
    (hs : s ∈ out) (h8 : ¬ Starred s) (m : Str) (h : ManualOp s m)
    (hc : ',' ∉ columns s.text 20 32) (g : Str) (sp : Char) (hg : columns s.text 20 32 = g ++ [sp])
    (hsp : isSpace sp = true) (c : Char) (hd : columns s.text 32 33 = [c]) (hcs : isSpace c = false)
    (hcc : c ≠ ',') : ReportedIn msgs s :=
  (reported_iff hr hs).2 (designated_bad s m h8 h hc g sp hg hsp c hd hcs hcc)

/-- The card `LN` with the cosequence counter designated. -/
def designatedSrc : Src := ⟨py "A.arg", 1, py "                   LN          C3,7           COUNTER       C,+14\n"⟩

/-- The transfer of characters 1 to 7. -/
def maskedSrc : Src := ⟨py "A.arg", 2, py "                   TXA,1,7      FROM\n"⟩

/-- A file of the two. -/
def manualFs : FileSystem := fun f =>
  if f = py "A.arg" then some (designatedSrc.text ++ maskedSrc.text) else none

theorem manualFs_run : ∃ msgs, CheckRun [designatedSrc, maskedSrc] msgs := by
  have hs : Sources manualFs [py "A.arg"] [designatedSrc, maskedSrc] := by
    refine ⟨[[designatedSrc, maskedSrc]], .cons ⟨_, rfl, ?_⟩ .nil, by simp⟩
    have : ∀ {text : Str} (ls : List Str), readlines text = ls →
        Expand manualFs (py "A.arg") 1 ls [designatedSrc, maskedSrc] →
        Expand manualFs (py "A.arg") 1 (readlines text) [designatedSrc, maskedSrc] :=
      fun ls h1 h2 => h1 ▸ h2
    refine this [designatedSrc.text, maskedSrc.text] (by decide +kernel) ?_
    iterate 2 refine .plain (by decide) (by decide) ?_
    exact .nil _ _
  obtain ⟨n, h⟩ := C81_exact_partial manualFs ⟨false, false, false, false, false, false⟩ [py "A.arg"] _
    (by simp) (by decide) hs
  obtain ⟨msgs, hm⟩ := (h n (le_refl n)).2 (by simp)
  exact ⟨msgs, manualFs, n, _, _, hs, hm⟩

/-- C191 fails: the comparison of the manual (711-715) that designates the cosequence counter has the
operation code `LN`, which is known, and is reported as unknown. -/
theorem C191_refuted : ¬ C191_statement := by
  intro h
  have hm : ManualOp designatedSrc (py "LN") :=
    ⟨by unfold PRL designatedSrc; decide, by decide, by decide, Or.inl (by decide +kernel)⟩
  obtain ⟨msgs, hr⟩ := manualFs_run
  exact h _ msgs hr designatedSrc (by simp) (py "LN") hm (by decide +kernel)
    (C191_designated_partial _ msgs hr _ (by simp) (by unfold Starred designatedSrc; decide) _ hm
      (by decide +kernel) (py "LN         ") ' ' (by decide +kernel) (by decide) 'C' (by decide +kernel)
      (by decide) (by decide))

/-- Without designation the same card is in order. -/
example : ManualOp ⟨py "A.arg", 1, py "                   LN           3,7\n"⟩ (py "LN") ∧
    Unbroken ⟨py "A.arg", 1, py "                   LN           3,7\n"⟩ (py "LN") ∧
    ¬ Designated ⟨py "A.arg", 1, py "                   LN           3,7\n"⟩ :=
  ⟨⟨by unfold PRL; decide, by decide, by decide, Or.inl (by decide +kernel)⟩,
    ⟨[], py "          ", by decide +kernel, by unfold Blank; decide, Or.inl (by unfold Blank; decide)⟩,
    by unfold Designated; decide +kernel⟩

/-- C192, the property as stated: a line with an operation code that the documents allow is not
reported. -/
def C192_statement : Prop :=
  ∀ out msgs, CheckRun out msgs → ∀ s ∈ out, ∀ m, HasInstr s m → Allowed m → ¬ ReportedIn msgs s

/-- C192, exactly: of the lines with an operation code that the documents allow, those with one of the
fourteen with an appended letter are reported. -/
theorem C192_reported_partial (out : List Src) (msgs : List CheckMsg) (hr : CheckRun out msgs) (s : Src)
    (hs : s ∈ out) (h8 : ¬ Starred s) (m : Str) (hm : HasInstr s m) (ha : Allowed m) :
    ReportedIn msgs s ↔ m ∈ threeLetter := by
  have h1 : ∀ m ∈ threeLetter, m ∉ INSTRUCTIONS := by decide +kernel
  rw [reported_iff hr hs, hasInstr_bad hm]
  constructor
  · rintro ⟨-, h⟩
    rcases ha with ha | ha
    · exact absurd ((C135_documented m).2 ha) h
    · exact ha
  · exact fun h => ⟨h8, h1 m h⟩

theorem threeLetter_instr (s : Src) (m r : Str) (hm : m ∈ threeLetter)
    (h : HasOp s (m ++ ',' :: r)) : HasInstr s m := by
  have h1 : ∀ m ∈ threeLetter, ',' ∉ m ∧ strip m = m ∧ m ≠ [] := by decide +kernel
  obtain ⟨h3, h4, h5⟩ := h1 m hm
  exact ⟨h5, _, m, h, ⟨h3, Or.inr ⟨r, rfl⟩⟩, stripped_iff.2 h4⟩

/-- C192: a field instruction with a generated mask, written as the manual says, is reported, whatever
the mask. -/
theorem C192_masked_partial (out : List Src) (msgs : List CheckMsg) (hr : CheckRun out msgs) (s : Src)
    (hs : s ∈ out) (h8 : ¬ Starred s) (m r : Str) (hm : m ∈ threeLetter)
    (h : HasOp s (m ++ ',' :: r)) : ReportedIn msgs s :=
  (C192_reported_partial out msgs hr s hs h8 m (threeLetter_instr s m r hm h) (Or.inr hm)).2 hm

/-- The transfer of characters 1 to 7. -/
theorem maskedSrc_op : HasOp maskedSrc (py "TXA" ++ ',' :: py "1,7") :=
  ⟨by unfold PRL maskedSrc; decide, by decide, stripped_iff.2 (by decide +kernel)⟩

/-- C192 fails: `TXA`, a transfer with a generated mask of characters. -/
theorem C192_refuted : ¬ C192_statement := by
  intro h
  obtain ⟨msgs, hr⟩ := manualFs_run
  have hi := threeLetter_instr maskedSrc (py "TXA") _ (by decide +kernel) maskedSrc_op
  exact h _ msgs hr maskedSrc (by simp) _ hi (Or.inr (by decide +kernel)) (C192_masked_partial _ msgs hr
    maskedSrc (by simp) (by unfold Starred maskedSrc; decide) _ _ (by decide +kernel) maskedSrc_op)

/-- Fourteen codes, none of them known. -/
example : threeLetter.length = 14 ∧ threeLetter.Nodup ∧ ∀ m ∈ threeLetter, m ∉ INSTRUCTIONS := by
  decide +kernel

end H800
