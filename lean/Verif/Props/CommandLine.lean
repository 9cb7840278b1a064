import Verif.Spec.CommandLine
import Verif.Props.CheckBack
import Mathlib.Data.List.Sort

/-!
C162: what check-instructions prints for a command line.
-/

namespace H800

open Spec
open scoped Classical

/-! ### Sorting keeps the order of items that are equal -/

theorem insertBy_stable {α : Type} {le : α → α → Bool} {R : α → α → Prop} (x : α) (l : List α)
    (hx : ∀ y ∈ l, R x y) (h : l.Pairwise fun a b => le b a = true → R a b) :
    (insertBy le x l).Pairwise fun a b => le b a = true → R a b := by
  induction l with
  | nil => simp [insertBy]
  | cons y l ih =>
    obtain ⟨h1, h2⟩ := List.pairwise_cons.1 h
    unfold insertBy
    by_cases hxy : le x y = true
    · rw [if_pos hxy]
      exact List.pairwise_cons.2 ⟨fun z hz _ => hx z hz, h⟩
    · rw [if_neg hxy]
      refine List.pairwise_cons.2 ⟨?_, ih (fun z hz => hx z (List.mem_cons_of_mem _ hz)) h2⟩
      intro z hz
      rcases List.mem_cons.1 ((insertBy_perm x l).mem_iff.1 hz) with rfl | hz
      · exact fun e => absurd e hxy
      · exact h1 z hz

theorem pySorted_stable {α : Type} {le : α → α → Bool} {R : α → α → Prop} (l : List α)
    (h : l.Pairwise R) : (pySorted le l).Pairwise fun a b => le b a = true → R a b := by
  induction l with
  | nil => simp [pySorted]
  | cons x l ih =>
    obtain ⟨h1, h2⟩ := List.pairwise_cons.1 h
    exact insertBy_stable x _ (fun y hy => h1 y (mem_pySorted.1 hy)) (ih h2)

theorem freqtab_order {d : Dict Str Nat} {l : List Str} (hk : d.map (·.1) = l) :
    (freqtab d).Pairwise fun a b => b.2 < a.2 ∨ a.2 = b.2 ∧ [a.1, b.1].Sublist l := by
  have hp : d.Pairwise fun a b => [a.1, b.1].Sublist l := by
    rw [List.pairwise_iff_forall_sublist]
    intro a b hab
    rw [← hk]
    exact hab.map (·.1)
  refine ((freqtab_sorted d).and (pySorted_stable (le := fun a b => decide (b.2 ≤ a.2)) d hp)).imp ?_
  rintro a b ⟨h1, h2⟩
  rcases Nat.lt_or_eq_of_le h1 with h | h
  · exact Or.inl h
  · exact Or.inr ⟨h.symm, h2 (by simp [h])⟩

/-! ### C162 -/

theorem number_eq (src : List Src) (p : Src → Prop) [DecidablePred p] :
    (src.filter fun s => decide (p s)).length = number src p := by
  unfold number
  congr 2
  funext s
  congr

theorem cardOf_srcCard (s : Src) : CardOf s (srcCard s) := by
  refine ⟨rfl, rfl, rfl, fun i hi => ?_⟩
  have := (instOf_iff s i).2 hi
  unfold instOf at this
  split at this
  · cases this
  · cases this
  · rename_i x xs h
    rw [h]; exact this

theorem cardMsgs_says (opts : CheckOpts) (P : Prop) (hP : opts.printOpcodes = true ↔ P) (s : Src) :
    LineSays P s (cardMsgs opts (srcCard s)) := by
  refine ⟨srcCard s, cardOf_srcCard s, ?_⟩
  unfold cardMsgs
  have h1 : (opts.printOpcodes && (instOf (srcCard s)).isSome) = true ↔ P ∧ ∃ i, HasInstr s i := by
    rw [Bool.and_eq_true, hP, Option.isSome_iff_exists]
    exact and_congr Iff.rfl (exists_congr fun i => instOf_iff s i)
  congr 1
  · by_cases h : P ∧ ∃ i, HasInstr s i
    · rw [if_pos h, if_pos (h1.2 h)]
    · rw [if_neg h, if_neg fun e => h (h1.1 e)]
  · by_cases h : BadInstr s
    · rw [if_pos h, if_pos ((badInst_iff s).2 h)]
    · rw [if_neg h, if_neg fun e => h ((badInst_iff s).1 e)]

/-- What the report says. -/
theorem report_says {fs : FileSystem} {fuel : Nat} {opts : CheckOpts} {files : List Str}
    {st : CheckState} (h : checkFiles fs fuel opts files CheckState.init = .ok st) :
    ∃ src, Sources fs files src ∧ st.out = (src.map srcCard).flatMap (cardMsgs opts) ∧
      st.linecount = src.length ∧ st.instrcount = number src (fun s => ∃ i, HasInstr s i) ∧
      st.errcount = number src BadInstr ∧
      FreqsAre src (opts.unused = true) (opts.sort = true) (shownFreqs opts st) ∧
      UnusedAre src (unusedNames st) := by
  obtain ⟨src, hs, h1, h2, h3, h4, -⟩ := C80_counts fs fuel opts files st h
  obtain ⟨src', hs', hst⟩ := foldFiles_ok h
  have hk : CheckState.init.instrtab.map (·.1) = INSTRUCTIONS := by
    rw [init_tab, List.map_map]; exact List.map_id _
  obtain ⟨-, -, -, hkeys, -, -, h7⟩ := checkFold_spec opts (src'.map srcCard) CheckState.init hk
  rw [← hst] at hkeys h7
  obtain rfl := sources_unique hs hs'
  have hnd : (st.instrtab.map (·.1)).Nodup := hkeys ▸ instructions_nodup
  have hperm : (if opts.sort = true then freqtab st.instrtab else byName st.instrtab).Perm
      st.instrtab := by
    split
    · exact freqtab_perm _
    · exact byName_perm hnd
  have hname : ((byName st.instrtab).map (·.1)).Pairwise StrLt := by
    rw [byName_keys]
    exact (pySortedStr_pairwise _).and ((pySortedStr_perm _).nodup_iff.2 hnd)
  refine ⟨src, hs, h7, h1, h2, h4, ⟨?_, ?_, ?_⟩, ?_, ?_⟩
  · intro i n
    unfold shownFreqs
    rw [List.mem_filter, hperm.mem_iff, ← dget_iff_mem hnd, h3, and_assoc, ← number_eq]
    refine and_congr Iff.rfl (and_congr Iff.rfl ?_)
    cases opts.unused <;> simp
  · intro hsort
    unfold shownFreqs
    rw [if_pos hsort]
    exact (freqtab_order hkeys).sublist List.filter_sublist
  · intro hsort
    unfold shownFreqs
    rw [if_neg hsort]
    exact (List.pairwise_map.1 hname).sublist List.filter_sublist
  · exact hname.sublist (List.Sublist.map _ List.filter_sublist)
  · intro i
    have hz : dget st.instrtab i = some 0 ↔
        i ∈ INSTRUCTIONS ∧ ∀ s ∈ src, HasInstr s i → Starred s := by
      rw [h3]
      refine and_congr Iff.rfl ?_
      rw [eq_comm, List.length_eq_zero_iff, List.filter_eq_nil_iff]
      simp only [decide_eq_true_eq, not_and]
      exact ⟨fun h s hs hi => by by_contra hn; exact h s hs hn hi,
        fun h s hs hn hi => hn (h s hs hi)⟩
    unfold unusedNames
    rw [← hz, dget_iff_mem hnd, ← (byName_perm hnd).mem_iff, List.mem_map]
    constructor
    · rintro ⟨⟨j, k⟩, hp, rfl⟩
      obtain ⟨hp, h0⟩ := List.mem_filter.1 hp
      have : k = 0 := by simpa using h0
      rw [← this]; exact hp
    · intro hp
      exact ⟨(i, 0), List.mem_filter.2 ⟨hp, by simp⟩, rfl⟩

/-- C162: for a command line that consists of options and of files that can be read, and does not ask
for help, check-instructions prints exactly this: for each line, in order, what is to be said about
it; with `--count` the number of lines and the frequency report, by number with `--sort`, without
instructions that do not occur with `--unused`; with `--unused` the instructions that do not occur;
and the number of errors. With `--verbose` it adds what is told while the files are read and the
starred lines that have an instruction, and without it nothing. It divides by zero instead if there is
no instruction and `--count` is given without `--unused`. -/
theorem C162_check (fs : FileSystem) (argv args : List Str) (os : List Opt) (src : List Src)
    (hm : Means CHECK_INSTRUCTIONS_OPTS argv os args) (hh : ¬ ∃ o ∈ os, o.dest = none)
    (hf : args ≠ []) (hne : ∀ f ∈ args, f ≠ []) (hs : Sources fs args src) :
    ∃ n, ∀ m, n ≤ m →
      ((Given os (py "count") ∧ ¬ Given os (py "unused") ∧ ∀ s ∈ src, ∀ i, ¬ HasInstr s i) →
        (checkInstructionsCmd fs m argv).2 = .error .zeroDivision) ∧
      (¬ (Given os (py "count") ∧ ¬ Given os (py "unused") ∧ ∀ s ∈ src, ∀ i, ¬ HasInstr s i) →
        ∃ out, checkInstructionsCmd fs m argv = (out, .ok ()) ∧
          CheckSays os src (out.filterMap usual) ∧
          (Given os (py "verbose") →
            VerboseAdds fs (fun s => ∃ i, HasInstr s i) args (out.filterMap extra)) ∧
          (¬ Given os (py "verbose") → out.filterMap extra = [])) := by
  rcases means_values C153_good.1 hm with ⟨e, -⟩ | ⟨-, v, e, hv⟩
  · exact absurd e hh
  have hcmd : ∀ m, checkInstructionsCmd fs m argv =
      checkInstructionsV (decide (Given os (py "verbose"))) fs m
      ⟨decide (Given os (py "all")), decide (Given os (py "count")),
       decide (Given os (py "invalid")), decide (Given os (py "printOpcodes")),
       decide (Given os (py "sort")), decide (Given os (py "unused"))⟩ args := by
    intro m
    unfold checkInstructionsCmd
    rw [e]
    simp only
    rw [hv (py "verbose") (by decide), hv (py "all") (by decide), hv (py "count") (by decide),
      hv (py "invalid") (by decide), hv (py "printOpcodes") (by decide),
      hv (py "sort") (by decide), hv (py "unused") (by decide)]
  obtain ⟨n, hn⟩ := C81_exact_partial fs ⟨decide (Given os (py "all")),
    decide (Given os (py "count")), decide (Given os (py "invalid")),
    decide (Given os (py "printOpcodes")), decide (Given os (py "sort")),
    decide (Given os (py "unused"))⟩ args src hf hne hs
  refine ⟨n, fun m hm => ?_⟩
  obtain ⟨hn1, hn2⟩ := hn m hm
  simp only [decide_eq_true_eq, decide_eq_false_iff_not] at hn1 hn2
  rw [hcmd m]
  generalize ho : (⟨decide (Given os (py "all")), decide (Given os (py "count")),
    decide (Given os (py "invalid")), decide (Given os (py "printOpcodes")),
    decide (Given os (py "sort")), decide (Given os (py "unused"))⟩ : CheckOpts) = opts at hn1 hn2 ⊢
  have hoc : opts.count = decide (Given os (py "count")) := by rw [← ho]
  have hop : opts.printOpcodes = decide (Given os (py "printOpcodes")) := by rw [← ho]
  have hos : opts.sort = decide (Given os (py "sort")) := by rw [← ho]
  have hou : opts.unused = decide (Given os (py "unused")) := by rw [← ho]
  obtain ⟨hu, he, -⟩ := C151_check (decide (Given os (py "verbose"))) fs m opts args
  constructor
  · intro hz
    obtain ⟨out, hout⟩ := ((C137_check_ends fs m opts args).2 _).2 (hn1 hz)
    rw [he, hout]
  · intro hz
    obtain ⟨msgs, hmsgs⟩ := hn2 hz
    have hrun := ((C137_check_ends fs m opts args).1 msgs).2 hmsgs
    rw [hrun] at he
    cases hV : checkInstructionsV (decide (Given os (py "verbose"))) fs m opts args with
    | mk out r =>
      rw [hV] at he
      simp only at he
      subst he
      refine ⟨out, rfl, ?_, ?_, ?_⟩
      · obtain ⟨st, head, hst, hadd, rfl⟩ := checkV_shape hV
        obtain ⟨src', hs', h1, h2, h3, h4, h5, h6⟩ := report_says hst
        obtain rfl := sources_unique hs hs'
        refine ⟨src.map (fun s => cardMsgs opts (srcCard s)), shownFreqs opts st, unusedNames st,
          ?_, ?_, h6, ?_⟩
        · rw [List.forall₂_map_right_iff, List.forall₂_same]
          exact fun s _ => cardMsgs_says opts _ (by rw [hop, decide_eq_true_eq]) s
        · simpa only [hou, hos, decide_eq_true_eq] using h5
        · rw [List.filterMap_append, hadd.1, (adds_msgs (v := false) (reportMsgs opts st)).1, h1,
            ← h2, ← h3, ← h4]
          unfold reportMsgs checkTail shownFreqs unusedNames
          rw [hoc, hou]
          simp [List.flatMap_def, List.map_map, Function.comp_def]
      · intro hver
        rw [decide_eq_true hver] at hV
        exact C152_check fs m opts args out hV
      · intro hver
        rw [decide_eq_false hver] at hV
        have := (C151_check false fs m opts args).2.2
        rw [hV] at this
        simp only at this
        rw [this]
        simp [List.filterMap_map, extra, Function.comp_def]

theorem lineSays_text {P : Prop} {s : Src} {a b : List CheckMsg} (ha : LineSays P s a)
    (hb : LineSays P s b) : a.flatMap CheckMsg.text = b.flatMap CheckMsg.text := by
  obtain ⟨c, ⟨c1, c2, c3, c4⟩, rfl⟩ := ha
  obtain ⟨d, ⟨d1, d2, d3, d4⟩, rfl⟩ := hb
  have h1 : cardText c = cardText d := by unfold cardText; rw [c1, c2, c3, d1, d2, d3]
  rw [List.flatMap_append, List.flatMap_append]
  congr 1
  · split
    · simp [CheckMsg.text, h1]
    · rfl
  · by_cases hbad : BadInstr s
    · obtain ⟨i, hi, -⟩ := hbad.2
      rw [if_pos hbad, if_pos hbad]
      simp only [List.flatMap_cons, List.flatMap_nil, CheckMsg.text]
      rw [c1, c2, c3, d1, d2, d3, c4 i hi, d4 i hi]
    · rw [if_neg hbad, if_neg hbad]

theorem strLt_asymm {a b : Str} (h : StrLt a b) (h' : StrLt b a) : False :=
  h.2 (strLe_antisymm _ _ h.1 h'.1)

theorem two_sublist_asymm {α : Type} {l : List α} (hn : l.Nodup) {a b : α} (h : [a, b].Sublist l)
    (h' : [b, a].Sublist l) : False := by
  induction l with
  | nil => cases h
  | cons x l ih =>
    obtain ⟨hx, hl⟩ := List.nodup_cons.1 hn
    cases h with
    | cons _ h =>
      cases h' with
      | cons _ h' => exact ih hl h h'
      | cons_cons _ h' => exact hx (h.subset (by simp))
    | cons_cons _ h =>
      cases h' with
      | cons _ h' => exact hx (h'.subset (by simp))
      | cons_cons _ h' => exact hx (h.subset (by simp))

theorem sorted_unique {α : Type} {r : α → α → Prop} (has : ∀ a b, r a b → r b a → False)
    {a b : List α} (ha : a.Pairwise r) (hb : b.Pairwise r) (h : ∀ x, x ∈ a ↔ x ∈ b) : a = b := by
  have hirr : ∀ x, ¬ r x x := fun x hx => has x x hx hx
  have hna : a.Nodup := ha.imp (S := (· ≠ ·)) fun {x y} hxy e => hirr x (by rw [← e] at hxy; exact hxy)
  have hnb : b.Nodup := hb.imp (S := (· ≠ ·)) fun {x y} hxy e => hirr x (by rw [← e] at hxy; exact hxy)
  exact List.Perm.eq_of_pairwise (fun x y _ _ h1 h2 => (has x y h1 h2).elim) ha hb
    ((List.perm_ext_iff_of_nodup hna hnb).2 h)

/-- C162: the options and the source lines determine the text that is printed, if `--verbose` is not
given. -/
theorem C162_unique (os : List Opt) (src : List Src) (a b : List CheckMsg)
    (ha : CheckSays os src a) (hb : CheckSays os src b) :
    a.flatMap CheckMsg.text = b.flatMap CheckMsg.text := by
  obtain ⟨ls, fr, un, h1, ⟨h2, h3, h4⟩, ⟨h5, h6⟩, rfl⟩ := ha
  obtain ⟨ls', fr', un', h1', ⟨h2', h3', h4'⟩, ⟨h5', h6'⟩, rfl⟩ := hb
  have hl : ls.flatten.flatMap CheckMsg.text = ls'.flatten.flatMap CheckMsg.text := by
    clear h2 h3 h4 h5 h6 h2' h3' h4' h5' h6'
    induction h1 generalizing ls' with
    | nil => cases h1'; rfl
    | cons h _ ih =>
      cases h1' with
      | cons h' ht =>
        rw [List.flatten_cons, List.flatten_cons, List.flatMap_append, List.flatMap_append,
          lineSays_text h h', ih _ ht]
  have hu : un = un' := sorted_unique (fun _ _ => strLt_asymm) h5 h5' fun i => by rw [h6, h6']
  have hfr : fr = fr' := by
    have hmem : ∀ x, x ∈ fr ↔ x ∈ fr' := fun ⟨i, n⟩ => by rw [h2, h2']
    by_cases hs : Given os (py "sort")
    · refine sorted_unique ?_ (h3 hs) (h3' hs) hmem
      rintro x y (h | ⟨h, k⟩) (h' | ⟨h', k'⟩)
      · omega
      · omega
      · omega
      · exact two_sublist_asymm instructions_nodup k k'
    · exact sorted_unique (fun _ _ => strLt_asymm) (h4 hs) (h4' hs) hmem
  subst hu hfr
  simp only [List.flatMap_append, hl]

/-- C162: a command line with `--sort` and `--print-opcodes`, and one with `--unused`. -/
example : Means CHECK_INSTRUCTIONS_OPTS [py "-cs", py "T", py "--print"]
      [⟨py "-c", py "--count", some (py "count")⟩, ⟨py "-s", py "--sort", some (py "sort")⟩,
       ⟨py "-p", py "--print-opcodes", some (py "printOpcodes")⟩] [py "T"] ∧
    (freqs ((checkInstructionsCmd spokenFs 5 [py "-cs", py "T", py "--print"]).1.filterMap usual)).take
      2 = [(py "TN", 1, 3), (py "BA", 0, 3)] ∧
    (freqs ((checkInstructionsCmd spokenFs 5 [py "-cu", py "T"]).1.filterMap usual)) =
      [(py "TN", 1, 3)] := by
  refine ⟨?_, by decide +kernel, by decide +kernel⟩
  refine Means.letters (os := [⟨py "-c", py "--count", some (py "count")⟩,
    ⟨py "-s", py "--sort", some (py "sort")⟩]) (by decide) ?_ (Means.plain (Or.inr (by decide))
    (Means.name (by decide) ?_ Means.done))
  · exact List.Forall₂.cons (by decide) (List.Forall₂.cons (by decide) List.Forall₂.nil)
  · exact abbrev_names.1 CHECK_INSTRUCTIONS_OPTS (by decide) _ (by decide) (py "print") (by decide)
      (by decide) (by decide)

end H800
