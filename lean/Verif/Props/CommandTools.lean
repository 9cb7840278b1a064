import Verif.Props.CommandLine
import Verif.Props.SymTrace
import Verif.Props.ListingTool

/-!
C163, C164, C165: what the other tools print for a command line.
-/

namespace H800

open Spec
open scoped Classical

theorem extra_msgs {α : Type} (l : List α) : (l.map VMsg.msg).filterMap extra = [] := by
  simp [List.filterMap_map, extra, Function.comp_def]

/-! ### C163 -/

/-- C163: for a command line with options, an opcode and files that can be read, list-instructions
exits if the opcode up to its first comma is not an instruction; otherwise it prints the lines that
match the opcode, in order, with file and line number if `--details` is given. With `--verbose` it adds
what is told while the files are read and the starred lines that have an operation. -/
theorem C163_list (fs : FileSystem) (argv files : List Str) (opcode p : Str) (os : List Opt)
    (src : List Src) (hm : Means LIST_INSTRUCTIONS_OPTS argv os (opcode :: files))
    (hh : ¬ ∃ o ∈ os, o.dest = none) (hne : ∀ f ∈ files, f ≠ []) (hs : Sources fs files src)
    (hpre : BeforeFirst ',' opcode p) :
    (p ∉ INSTRUCTIONS → ∀ m, listInstructionsCmd fs m argv = ([], .error .systemExit)) ∧
    (p ∈ INSTRUCTIONS → ∃ n, ∀ m, n ≤ m → ∃ out, listInstructionsCmd fs m argv = (out, .ok ()) ∧
      List.Forall₂ (ListsLine (Given os (py "details")))
        (src.filter fun s => decide (Matches opcode s)) (out.filterMap usual) ∧
      (Given os (py "verbose") →
        VerboseAdds fs (fun s => ∃ o, HasOp s o) files (out.filterMap extra)) ∧
      (¬ Given os (py "verbose") → out.filterMap extra = [])) := by
  rcases means_values C153_good.2.2.2.1 hm with ⟨e, -⟩ | ⟨-, v, e, hv⟩
  · exact absurd e hh
  have hcmd : ∀ m, listInstructionsCmd fs m argv =
      listInstructionsV (decide (Given os (py "verbose"))) fs m
        (decide (Given os (py "details"))) (opcode :: files) := by
    intro m
    unfold listInstructionsCmd
    rw [e]
    simp only
    rw [hv (py "verbose") (by decide), hv (py "details") (by decide)]
  obtain ⟨h2, -⟩ := C82_total fs (decide (Given os (py "details"))) opcode p files hne src hs hpre
  constructor
  · intro hp m
    rw [hcmd]
    have hcom : (if opcode.contains ',' = true then splitFirst opcode ',' else opcode) = p := by
      rw [← beforeFirst_unique hpre]
      split
      · rfl
      · rename_i h; rw [splitFirst_id (by rw [← contains_comma]; exact h)]
    unfold listInstructionsV
    simp only [hcom]
    rw [if_pos (by rw [List.contains_iff_mem]; exact hp)]
  · intro hp
    obtain ⟨n, lines, hn⟩ := h2 hp
    refine ⟨n, fun m hm => ?_⟩
    rw [hcmd]
    have hl := hn m hm
    have hrun := ((C137_list_ends fs m _ _).1 lines).2 hl
    obtain ⟨c1, c2, c3⟩ := C151_list (decide (Given os (py "verbose"))) fs m
      (decide (Given os (py "details"))) (opcode :: files)
    rw [hrun] at c1 c2 c3
    simp only at c1 c2 c3
    obtain ⟨src', hs', hl'⟩ := C82_lists fs m _ opcode files lines hl
    obtain rfl := sources_unique hs hs'
    cases hV : listInstructionsV (decide (Given os (py "verbose"))) fs m
        (decide (Given os (py "details"))) (opcode :: files) with
    | mk out r =>
      rw [hV] at c1 c2
      simp only at c1 c2
      subst c2
      refine ⟨out, rfl, ?_, ?_, ?_⟩
      · rw [c1]
        simp only [decide_eq_true_eq, decide_eq_false_iff_not] at hl'
        exact hl'
      · intro hver
        rw [decide_eq_true hver] at hV
        exact C152_list fs m _ opcode files out hV
      · intro hver
        rw [decide_eq_false hver] at hV
        rw [hV] at c3
        simp only at c3
        rw [c3, extra_msgs]

theorem listingV_telling {fs fs' : FileSystem} {fuel : Nat} {files : List Str}
    {out : List (VMsg Empty)} (h : listingFilesV true fuel fs files = (fs', out, .ok ())) :
    ListedTelling fs files fs' (out.filterMap extra) := by
  induction files generalizing fs out with
  | nil => cases h; exact .nil _
  | cons f files ih =>
    rw [listingFilesV] at h
    cases hd : deckCardsV (α := Empty) true fs fuel f with
    | mk o r =>
      rw [hd] at h
      cases r with
      | error e => cases h
      | ok cards =>
        obtain ⟨m, src, h1, h2, rfl, h3⟩ := deckCardsV_ok hd
        simp only at h
        cases hl : listingFilesV true fuel
            (writeFile fs (listfileOf f) ((src.map srcCard).flatMap deckLine)) files with
        | mk fs2 q =>
        obtain ⟨out2, r⟩ := q
        rw [hl] at h
        cases h
        obtain ⟨ls, h4, h5⟩ := deckLines_spec src
        rw [if_pos trivial, List.filterMap_append, List.filterMap_append, h3, List.append_assoc]
        refine .cons h2 h1 (listfileOf_spec f) h4 ?_ ?_ (ih hl)
        · unfold writeFile
          rw [if_pos rfl, h5]
        · intro g hg
          unfold writeFile
          rw [if_neg hg]

theorem leftIn_unique {w : Nat} {s t t' : Str} (h : LeftIn w s t) (h' : LeftIn w s t') : t = t' := by
  obtain ⟨k, rfl, h1, h2⟩ := h
  obtain ⟨k', rfl, h1', h2'⟩ := h'
  have : k = k' := by
    rcases Nat.lt_or_ge w s.length with hw | hw
    · rw [h2 hw, h2' hw]
    · have e := h1 hw
      have e' := h1' hw
      simp only [List.length_append, List.length_replicate] at e e'
      omega
  rw [this]

theorem forall2_listing_unique {out : List Src} {ls ls' : List Str}
    (h : List.Forall₂ ListingLine out ls) (h' : List.Forall₂ ListingLine out ls') : ls = ls' := by
  induction h generalizing ls' with
  | nil => cases h'; rfl
  | cons h _ ih =>
    cases h' with
    | cons h' ht =>
      obtain ⟨a, b, ha, hb, rfl⟩ := h
      obtain ⟨a', b', ha', hb', rfl⟩ := h'
      rw [ih ht, leftIn_unique ha ha', leftIn_unique hb hb']

theorem listed_runs {fs fs' : FileSystem} {files : List Str} (h : Listed fs files fs')
    (hne : ∀ f ∈ files, f ≠ []) :
    ∃ n, ∀ m, n ≤ m → listingFiles m fs files = (fs', .ok ()) := by
  induction h with
  | nil => exact ⟨0, fun _ _ => rfl⟩
  | @cons fs fs1 fs' f files out name ls h1 h2 h3 h4 h5 _ ih =>
    obtain ⟨n, hn⟩ := ih fun g hg => hne g (List.mem_cons_of_mem _ hg)
    obtain ⟨k, hk⟩ := deckCards_complete (hne f (List.mem_cons_self ..)) h1
    refine ⟨max n k, fun m hm => ?_⟩
    rw [listingFiles, hk m (by omega)]
    simp only
    have : writeFile fs (listfileOf f) ((out.map srcCard).flatMap deckLine) = fs1 := by
      obtain ⟨ls', h6, h7⟩ := deckLines_spec out
      obtain rfl := listingName_unique (listfileOf_spec f) h2
      obtain rfl := forall2_listing_unique h3 h6
      funext g
      unfold writeFile
      by_cases hg : g = listfileOf f
      · rw [if_pos hg, hg, h4, h7]
      · rw [if_neg hg, h5 g hg]
    rw [this]
    exact hn m (by omega)

/-- C163: for a command line with files that can be listed one after the other, listing leaves their
listings, and with `--verbose` tells for each file what is told while it is read and then the name of
its listing; otherwise it prints nothing. -/
theorem C163_listing (fs fs' : FileSystem) (argv files : List Str) (os : List Opt)
    (hm : Means VERBOSE_OPTS argv os files) (hh : ¬ ∃ o ∈ os, o.dest = none)
    (hf : files ≠ []) (hne : ∀ f ∈ files, f ≠ []) (hl : Listed fs files fs') :
    ∃ n, ∀ m, n ≤ m → ∃ out, listingCmd fs m argv = (fs', out, .ok ()) ∧
      (Given os (py "verbose") → ListedTelling fs files fs' (out.filterMap extra)) ∧
      (¬ Given os (py "verbose") → out = []) := by
  rcases means_values C153_good.2.2.2.2.1 hm with ⟨e, -⟩ | ⟨-, v, e, hv⟩
  · exact absurd e hh
  have hcmd : ∀ m, listingCmd fs m argv =
      listingV (decide (Given os (py "verbose"))) fs m files := by
    intro m
    unfold listingCmd
    rw [e]
    simp only
    rw [hv (py "verbose") (by decide)]
  obtain ⟨n, hn⟩ := listed_runs hl hne
  refine ⟨n, fun m hm => ?_⟩
  rw [hcmd]
  obtain ⟨c1, c2, c3⟩ := C151_listing (decide (Given os (py "verbose"))) fs m files
  have hmain : listingMain fs m files = (fs', .ok ()) := by
    unfold listingMain
    rw [if_neg (list_args hf), hn m hm]
  rw [hmain] at c1 c2
  cases hV : listingV (decide (Given os (py "verbose"))) fs m files with
  | mk g q =>
    obtain ⟨out, r⟩ := q
    rw [hV] at c1 c2
    simp only at c1 c2
    subst c1 c2
    refine ⟨out, rfl, ?_, ?_⟩
    · intro hver
      rw [decide_eq_true hver] at hV
      unfold listingV at hV
      rw [if_neg (list_args hf)] at hV
      exact listingV_telling hV
    · intro hver
      rw [decide_eq_false hver] at hV
      rw [hV] at c3
      exact c3

/-- C163: `-D` with an instruction and two files; an unknown instruction; and a listing. -/
example : Means LIST_INSTRUCTIONS_OPTS [py "-D", py "TN", py "A.arg", py "B.arg"]
      [⟨py "-D", py "--details", some (py "details")⟩] [py "TN", py "A.arg", py "B.arg"] ∧
    Sources twoFs [py "A.arg", py "B.arg"] (twoA ++ twoB) ∧
    BeforeFirst ',' (py "TN") (py "TN") ∧ py "TN" ∈ INSTRUCTIONS ∧
    (listInstructionsCmd twoFs 5 [py "-D", py "TN", py "A.arg", py "B.arg"]).1.filterMap usual =
      [py "A.arg" ++ List.replicate 43 ' ' ++ py "      1         b          TN",
       py "B.arg" ++ List.replicate 43 ' ' ++ py "      1         D          TN"] ∧
    listInstructionsCmd twoFs 5 [py "-D", py "QQ", py "A.arg", py "B.arg"] =
      ([], .error .systemExit) ∧
    Means VERBOSE_OPTS [py "A.arg", py "-v"] [⟨py "-v", py "--verbose", some (py "verbose")⟩]
      [py "A.arg"] ∧
    (listingCmd twoFs 5 [py "A.arg", py "-v"]).2.1 =
      [.reading (py "A.arg"), .wrote (py "A.lst")] := by
  refine ⟨?_, ?_, ?_, by decide, ?_, ?_, ?_, ?_⟩
  · exact Means.letters (cs := py "D") (os := [_]) (by decide)
      (List.Forall₂.cons (by decide) List.Forall₂.nil)
      (.plain (Or.inr (by decide)) (.plain (Or.inr (by decide)) (.plain (Or.inr (by decide)) .done)))
  · have := read_sources twoFs_read
    exact this
  · exact ⟨by decide, Or.inl rfl⟩
  · decide +kernel
  · decide +kernel
  · exact .plain (Or.inr (by decide)) (Means.letters (cs := py "v") (os := [_]) (by decide)
      (List.Forall₂.cons (by decide) List.Forall₂.nil) .done)
  · decide +kernel

/-! ### C164 -/

/-- C164: for a command line with files that can be read, check-symbols reports the errors of each
file; then, if `--complex` is given, the symbols with complex definitions only, in order, with at most
ten suggestions each, and their number if there are any; and the total if there are several files. -/
theorem C164_check (upper : Str → Str) (extract : Str → List Str → Nat → List Str) (fs : FileSystem)
    (argv files : List Str) (os : List Opt) (srcs : List (Str × List Src))
    (hm : Means CHECK_SYMBOLS_OPTS argv os files) (hh : ¬ ∃ o ∈ os, o.dest = none)
    (hf : files ≠ []) (hne : ∀ f ∈ files, f ≠ []) (hp : PlainFiles files)
    (hr : Read fs files srcs) :
    ∃ n, ∀ m, n ≤ m → ∃ (out : _) (rs : _) (und : List (Str × List Str)),
      checkSymbolsCmd upper extract fs m argv = (out, .ok ()) ∧
      List.Forall₂ (FileReport upper true) srcs rs ∧
      Increasing (und.map (·.1)) ∧
      (∀ x, x ∈ und.map (·.1) ↔ Given os (py "complex") ∧ HasDef upper srcs x (py "complex") ∧
        ¬ HasDef upper srcs x (py "simple")) ∧
      (Chooses extract → ∀ p ∈ und, Suggested upper srcs p.2) ∧
      out.filterMap usual = rs.flatten ++ und.map (fun p => .complexOnly p.1) ++
        (if und = [] then [] else .undefinedHeader :: und.map (fun p =>
          if p.2 = [] then .noMatches p.1 else .matches_ p.1 p.2) ++ [.checkErrs und.length]) ++
        (if 1 < files.length then
          [.total (number (srcs.flatMap (·.2)) (InError upper) + und.length)] else []) ∧
      (Given os (py "verbose") → NotesAre fs files (out.filterMap extra)) ∧
      (¬ Given os (py "verbose") → out.filterMap extra = []) := by
  rcases means_values C153_good.2.1 hm with ⟨e, -⟩ | ⟨-, v, e, hv⟩
  · exact absurd e hh
  have hcmd : ∀ m, checkSymbolsCmd upper extract fs m argv =
      checkSymbolsV (decide (Given os (py "verbose"))) upper extract fs m
        (decide (Given os (py "complex"))) files := by
    intro m
    unfold checkSymbolsCmd
    rw [e]
    simp only
    rw [hv (py "verbose") (by decide), hv (py "complex") (by decide)]
  obtain ⟨n, rep, hn⟩ := C85_completes upper extract fs (decide (Given os (py "complex"))) files hf
    hne hp srcs hr
  refine ⟨n, fun m hm => ?_⟩
  rw [hcmd]
  have hrep := hn m hm
  obtain ⟨srcs1, hr1, -, h1, h2, h3⟩ := C85_total upper extract fs m _ files rep hp hrep
  obtain rfl := read_unique hr hr1
  obtain ⟨srcs2, rs, hr2, h4, hrun⟩ := (C147_check_success upper extract fs m
    (decide (Given os (py "complex"))) files hp).2 rep hrep
  obtain rfl := read_unique hr hr2
  obtain ⟨c1, c2, c3⟩ := C151_check_symbols (decide (Given os (py "verbose"))) upper extract fs m
    (decide (Given os (py "complex"))) files
  rw [hrun] at c1 c2 c3
  simp only at c1 c2 c3
  cases hV : checkSymbolsV (decide (Given os (py "verbose"))) upper extract fs m
      (decide (Given os (py "complex"))) files with
  | mk out r =>
    rw [hV] at c1 c2
    simp only at c1 c2
    subst c2
    refine ⟨out, rs, rep.undefined, rfl, h4, h1, ?_, ?_, ?_, ?_, ?_⟩
    · intro x
      rw [h2, decide_eq_true_eq]
      rfl
    · intro hex p hp'
      obtain ⟨srcs3, hr3, h5⟩ := C85_matches upper extract hex fs m _ files rep hp hrep
      obtain rfl := read_unique hr hr3
      exact h5 p hp'
    · rw [c1, h3]
      by_cases hlen : 1 < files.length
      · rw [if_pos hlen, if_pos hlen]
        unfold number
        rfl
      · rw [if_neg hlen, if_neg hlen]
    · intro hver
      rw [decide_eq_true hver] at hV
      exact C152_symbols upper extract fs m files out (Or.inl ⟨_, hV⟩)
    · intro hver
      rw [decide_eq_false hver] at hV
      rw [hV] at c3
      simp only at c3
      rw [c3, extra_msgs]

/-- C164: for a command line with files that can be read, list-symbols reports the errors of each file
and then lists all definitions. -/
theorem C164_list (upper : Str → Str) (fs : FileSystem)
    (argv files : List Str) (os : List Opt) (srcs : List (Str × List Src))
    (hm : Means VERBOSE_OPTS argv os files) (hh : ¬ ∃ o ∈ os, o.dest = none)
    (hf : files ≠ []) (hne : ∀ f ∈ files, f ≠ []) (hp : PlainFiles files)
    (hr : Read fs files srcs) :
    ∃ n, ∀ m, n ≤ m → ∃ out rs l, listSymbolsCmd upper fs m argv = (out, .ok ()) ∧
      List.Forall₂ (FileReport upper false) srcs rs ∧ RowsAre upper srcs l ∧
      out.filterMap usual = rs.flatten ++ l.map .listing ∧
      (Given os (py "verbose") → NotesAre fs files (out.filterMap extra)) ∧
      (¬ Given os (py "verbose") → out.filterMap extra = []) := by
  rcases means_values C153_good.2.2.2.2.1 hm with ⟨e, -⟩ | ⟨-, v, e, hv⟩
  · exact absurd e hh
  have hcmd : ∀ m, listSymbolsCmd upper fs m argv =
      listSymbolsV (decide (Given os (py "verbose"))) upper fs m files := by
    intro m
    unfold listSymbolsCmd
    rw [e]
    simp only
    rw [hv (py "verbose") (by decide)]
  obtain ⟨n, l, hn⟩ := C92_completes upper fs files hf hne hp srcs hr
  refine ⟨n, fun m hm => ?_⟩
  rw [hcmd]
  have hl := hn m hm
  obtain ⟨srcs1, hr1, h1, h2, h3⟩ := C92_rows upper fs m files l hp hl
  obtain rfl := read_unique hr hr1
  obtain ⟨srcs2, rs, hr2, h4, hrun⟩ := (C147_list_success upper fs m files hp).2 l hl
  obtain rfl := read_unique hr hr2
  obtain ⟨c1, c2, c3⟩ := C151_list_symbols (decide (Given os (py "verbose"))) upper fs m files
  rw [hrun] at c1 c2 c3
  simp only at c1 c2 c3
  cases hV : listSymbolsV (decide (Given os (py "verbose"))) upper fs m files with
  | mk out r =>
    rw [hV] at c1 c2
    simp only at c1 c2
    subst c2
    refine ⟨out, rs, l, rfl, h4, ⟨h1, h2, h3⟩, c1, ?_, ?_⟩
    · intro hver
      rw [decide_eq_true hver] at hV
      exact C152_symbols upper (fun _ _ _ => []) fs m files out (Or.inr (Or.inl hV))
    · intro hver
      rw [decide_eq_false hver] at hV
      rw [hV] at c3
      simp only at c3
      rw [c3, extra_msgs]

/-- find-symbols gets to its end when the files can be read and the options do not conflict. -/
theorem findSymbols_completes (upper : Str → Str) (extract : Str → List Str → Nat → List Str)
    (fs : FileSystem) (begin end_ fuzzy exact_ : Bool) (symbol : Str) (files : List Str)
    (hb : ¬ 2 ≤ [begin, end_, fuzzy, exact_].count true)
    (hf : files ≠ []) (hne : ∀ f ∈ files, f ≠ []) (hp : PlainFiles files)
    (srcs : List (Str × List Src)) (hr : Read fs files srcs) :
    ∃ n r, ∀ m, n ≤ m →
      findSymbols upper extract fs m begin end_ fuzzy exact_ (symbol :: files) = .ok r := by
  obtain ⟨n, hn⟩ := buildAll_complete_from (upper := upper) (fs := fs) (srcs := srcs)
    (fun p hm => hne p.1 (hr.1 ▸ List.mem_map.2 ⟨p, hm, rfl⟩)) (read_plain hr hp) hr.2
  obtain ⟨q, h1⟩ := hn ([], [], 0) plain4_nil
  refine ⟨n, match (findSymbolDef extract q.1 symbol none begin end_ fuzzy).1 with
      | .nothing => none
      | .names [] => none
      | .defs [] => none
      | r => some r, fun m hm => ?_⟩
  have h2 : buildAll upper fs m files = .ok q := by
    have := h1 m hm
    rw [hr.1] at this
    exact this
  have hc : ¬ ((begin && exact_) || (end_ && exact_) || (begin && end_) ||
      (fuzzy && (begin || end_ || exact_))) = true := by
    revert hb
    cases begin <;> cases end_ <;> cases fuzzy <;> cases exact_ <;> simp
  unfold findSymbols
  rw [if_neg hc]
  match files with
  | [] => exact absurd rfl hf
  | f :: files =>
    simp only
    rw [h2, py_bind_ok]
    split <;> simp_all

theorem conflict_iff (os : List Opt) : Conflict os ↔
    2 ≤ [decide (Given os (py "begin")), decide (Given os (py "end")), decide (Given os (py "fuzzy")),
      decide (Given os (py "exact"))].count true := by
  constructor
  · rintro ⟨d, hd, d', hd', hne, h1, h2⟩
    simp only [List.mem_cons, List.not_mem_nil, or_false] at hd hd'
    rcases hd with rfl | rfl | rfl | rfl <;> rcases hd' with rfl | rfl | rfl | rfl <;>
      first
      | exact absurd rfl hne
      | (rw [decide_eq_true h1, decide_eq_true h2]
         generalize decide (Given os _) = a
         generalize decide (Given os _) = b
         cases a <;> cases b <;> decide)
  · intro h
    by_cases h1 : Given os (py "begin") <;> by_cases h2 : Given os (py "end") <;>
      by_cases h3 : Given os (py "fuzzy") <;> by_cases h4 : Given os (py "exact") <;>
      simp only [h1, h2, h3, h4, decide_true, decide_false] at h <;>
      first
      | exact absurd h (by decide)
      | exact ⟨_, by decide, _, by decide, by decide, h1, h2⟩
      | exact ⟨_, by decide, _, by decide, by decide, h1, h3⟩
      | exact ⟨_, by decide, _, by decide, by decide, h1, h4⟩
      | exact ⟨_, by decide, _, by decide, by decide, h2, h3⟩
      | exact ⟨_, by decide, _, by decide, by decide, h2, h4⟩
      | exact ⟨_, by decide, _, by decide, by decide, h3, h4⟩

theorem findSymbols_fuzzy (upper : Str → Str) (extract : Str → List Str → Nat → List Str)
    (hex : Chooses extract) (fs : FileSystem) (fuel : Nat) (text : Str) (files : List Str)
    (r : Option Found) (hp : PlainFiles files)
    (h : findSymbols upper extract fs fuel false false true false (text :: files) = .ok r) :
    ∃ srcs l, Read fs files srcs ∧ (r = if l = [] then none else some (.names l)) ∧
      Suggested upper srcs l := by
  unfold findSymbols at h
  match files with
  | [] => cases h
  | f :: files =>
    simp only [Bool.and_false, Bool.or_self, Bool.false_eq_true, if_false] at h
    cases hb : buildAll upper fs fuel (f :: files) with
    | error e => rw [hb] at h; cases h
    | ok q =>
      obtain ⟨t, errs, tot⟩ := q
      rw [hb, py_bind_ok] at h
      simp only at h
      obtain ⟨srcs, hr, h1, -⟩ := buildAll_ok_from (plainFiles_iff.1 hp) plain4_nil hb
      simp only at h1
      obtain ⟨l, hl, h10, hall⟩ := C77_fuzzy extract hex t text none
      rw [hl] at h
      refine ⟨srcs, l, hr, ?_, h10, fun x hx => ?_⟩
      · cases l with
        | nil => cases h; rfl
        | cons x l => cases h; rfl
      · have := hall x hx
        rw [h1, buildSrcs_has upper srcs (read_plain hr hp)] at this
        exact this

/-- C164: find-symbols prints nothing and exits if two of the options that exclude each other are
given, or no symbol or no file. Otherwise, if the files can be read, it reports the errors of each
file, and then: the definitions of the symbol, or that it has none; with `--begin` or `--end` the
defined symbols with this beginning or end, in order; with `--fuzzy` some symbols. -/
theorem C164_find (upper : Str → Str) (extract : Str → List Str → Nat → List Str) (fs : FileSystem)
    (argv args : List Str) (os : List Opt)
    (hm : Means FIND_SYMBOLS_OPTS argv os args) (hh : ¬ ∃ o ∈ os, o.dest = none) :
    (Conflict os ∨ args.length < 2 →
      ∀ m, findSymbolsCmd upper extract fs m argv = ([], .error .systemExit)) ∧
    ∀ symbol files srcs, ¬ Conflict os → args = symbol :: files → files ≠ [] →
      (∀ f ∈ files, f ≠ []) → PlainFiles files → Read fs files srcs →
      ∃ n, ∀ m, n ≤ m → ∃ out rs tail, findSymbolsCmd upper extract fs m argv = (out, .ok ()) ∧
        List.Forall₂ (FileReport upper true) srcs rs ∧
        out.filterMap usual = rs.flatten ++ tail ∧
        (¬ Given os (py "begin") → ¬ Given os (py "end") → ¬ Given os (py "fuzzy") →
          (∃ d, tail = [.found (.defs d)] ∧ DefsAre upper srcs symbol d) ∨
          tail = [.undefined symbol] ∧ ¬ IsDefined upper srcs symbol) ∧
        (Given os (py "begin") ∨ Given os (py "end") →
          ∃ l, Increasing l ∧ (tail = if l = [] then [] else [.found (.names l)]) ∧
            ∀ x, x ∈ l ↔ IsDefined upper srcs x ∧
              ((Given os (py "begin") ∧ ∃ y, x = symbol ++ y) ∨
               (Given os (py "end") ∧ ∃ y, x = y ++ symbol))) ∧
        (Given os (py "fuzzy") → Chooses extract →
          ∃ l, (tail = if l = [] then [] else [.found (.names l)]) ∧ Suggested upper srcs l) ∧
        (Given os (py "verbose") → NotesAre fs files (out.filterMap extra)) ∧
        (¬ Given os (py "verbose") → out.filterMap extra = []) := by
  rcases means_values C153_good.2.2.1 hm with ⟨e, -⟩ | ⟨-, v, e, hv⟩
  · exact absurd e hh
  have hcmd : ∀ m, findSymbolsCmd upper extract fs m argv =
      findSymbolsV (decide (Given os (py "verbose"))) upper extract fs m
        (decide (Given os (py "begin"))) (decide (Given os (py "end")))
        (decide (Given os (py "fuzzy"))) (decide (Given os (py "exact"))) args := by
    intro m
    unfold findSymbolsCmd
    rw [e]
    simp only
    rw [hv (py "verbose") (by decide), hv (py "begin") (by decide), hv (py "end") (by decide),
      hv (py "fuzzy") (by decide), hv (py "exact") (by decide)]
  rw [conflict_iff]
  constructor
  · intro h m
    rw [hcmd]
    generalize decide (Given os (py "begin")) = begin at *
    generalize decide (Given os (py "end")) = end_ at *
    generalize decide (Given os (py "fuzzy")) = fuzzy at *
    generalize decide (Given os (py "exact")) = exact_ at *
    unfold findSymbolsV
    match args with
    | [] => cases begin <;> cases end_ <;> cases fuzzy <;> cases exact_ <;> rfl
    | [a] => cases begin <;> cases end_ <;> cases fuzzy <;> cases exact_ <;> rfl
    | a :: b :: l =>
      rcases h with h | h
      · revert h
        cases begin <;> cases end_ <;> cases fuzzy <;> cases exact_ <;> simp
      · simp only [List.length_cons] at h; omega
  rintro symbol files srcs hc rfl hf hne hp hr
  obtain ⟨n, r, hn⟩ := findSymbols_completes upper extract fs _ _ _ _ symbol files hc hf hne hp srcs hr
  refine ⟨n, fun m hm => ?_⟩
  rw [hcmd]
  have hl := hn m hm
  obtain ⟨srcs2, rs, hr2, h4, hrun⟩ := (C147_find_success upper extract fs m _ _ _ _ symbol files hp).2 r hl
  obtain rfl := read_unique hr hr2
  obtain ⟨c1, c2, c3⟩ := C151_find_symbols (decide (Given os (py "verbose"))) upper extract fs m
    (decide (Given os (py "begin"))) (decide (Given os (py "end")))
    (decide (Given os (py "fuzzy"))) (decide (Given os (py "exact"))) (symbol :: files)
  rw [hrun] at c1 c2 c3
  simp only at c1 c2 c3
  cases hV : findSymbolsV (decide (Given os (py "verbose"))) upper extract fs m
    (decide (Given os (py "begin"))) (decide (Given os (py "end")))
    (decide (Given os (py "fuzzy"))) (decide (Given os (py "exact"))) (symbol :: files) with
  | mk out r' =>
    rw [hV] at c1 c2
    simp only at c1 c2
    subst c2
    refine ⟨out, rs, _, rfl, h4, c1, ?_, ?_, ?_, ?_, ?_⟩
    · intro hb he hz
      rw [decide_eq_false hb, decide_eq_false he, decide_eq_false hz] at hl
      obtain ⟨srcs3, hr3, h5⟩ := C93_definitions upper extract fs m _ symbol files r hp hl
      obtain rfl := read_unique hr hr3
      rcases h5 with ⟨rfl, h5⟩ | ⟨d, rfl, h5⟩
      · refine Or.inr ⟨?_, h5⟩
        rw [decide_eq_false hb, decide_eq_false he, decide_eq_false hz]
        rfl
      · exact Or.inl ⟨d, rfl, h5⟩
    · intro hbe
      have h6 : decide (Given os (py "begin")) = !decide (Given os (py "end")) ∧
          decide (Given os (py "fuzzy")) = false ∧ decide (Given os (py "exact")) = false := by
        have hbe' : (decide (Given os (py "begin")) || decide (Given os (py "end"))) = true := by
          simpa using hbe
        revert hc hbe'
        generalize decide (Given os (py "begin")) = begin
        generalize decide (Given os (py "end")) = end_
        generalize decide (Given os (py "fuzzy")) = fuzzy
        generalize decide (Given os (py "exact")) = exact_
        revert begin end_ fuzzy exact_
        decide
      obtain ⟨h6, h7, h8⟩ := h6
      rw [h7, h8] at hl
      obtain ⟨srcs3, l, hr3, h9, rfl, h10⟩ := C93_affix upper extract fs m _ _ symbol files r hp h6 hl
      obtain rfl := read_unique hr hr3
      refine ⟨l, h9, ?_, ?_⟩
      · by_cases hl : l = []
        · rw [if_pos hl, if_pos hl]
          simp only
          rw [if_pos (by simpa using Or.inl hbe)]
        · rw [if_neg hl, if_neg hl]
      · intro x
        rw [h10, decide_eq_true_eq, decide_eq_true_eq]
        rfl
    · intro hz hex
      have h6 : decide (Given os (py "begin")) = false ∧ decide (Given os (py "end")) = false ∧
          decide (Given os (py "fuzzy")) = true ∧ decide (Given os (py "exact")) = false := by
        have hz' : decide (Given os (py "fuzzy")) = true := decide_eq_true hz
        revert hc hz'
        generalize decide (Given os (py "begin")) = begin
        generalize decide (Given os (py "end")) = end_
        generalize decide (Given os (py "fuzzy")) = fuzzy
        generalize decide (Given os (py "exact")) = exact_
        revert begin end_ fuzzy exact_
        decide
      obtain ⟨h6, h7, h8, h9⟩ := h6
      rw [h6, h7, h8, h9] at hl
      obtain ⟨srcs3, l, hr3, rfl, h10⟩ := findSymbols_fuzzy upper extract hex fs m symbol files r hp hl
      obtain rfl := read_unique hr hr3
      refine ⟨l, ?_, h10⟩
      by_cases hl : l = []
      · rw [if_pos hl, if_pos hl]
        simp only
        rw [if_pos (by rw [h8, Bool.or_true])]
      · rw [if_neg hl, if_neg hl]
    · intro hver
      rw [decide_eq_true hver] at hV
      exact C152_symbols upper extract fs m files out (Or.inr (Or.inr ⟨_, _, _, _, _, hV⟩))
    · intro hver
      rw [decide_eq_false hver] at hV
      rw [hV] at c3
      simp only at c3
      rw [c3, extra_msgs]

/-- C164: the hypotheses for two files, the first of which has an error, and the messages of the three
tools. -/
example : Means CHECK_SYMBOLS_OPTS [py "-c", py "A.arg", py "B.arg"]
      [⟨py "-c", py "--complex", some (py "complex")⟩] [py "A.arg", py "B.arg"] ∧
    Means FIND_SYMBOLS_OPTS [py "D", py "--end", py "A.arg", py "B.arg"]
      [⟨py "-e", py "--end", some (py "end")⟩] [py "D", py "A.arg", py "B.arg"] ∧
    ¬ Conflict [⟨py "-e", py "--end", some (py "end")⟩] ∧
    PlainFiles [py "A.arg", py "B.arg"] ∧
    Read twoFs [py "A.arg", py "B.arg"] [(py "A.arg", twoA), (py "B.arg", twoB)] ∧
    (checkSymbolsCmd asciiUpper (fun _ _ _ => []) twoFs 5
      [py "-c", py "A.arg", py "B.arg"]).1.length = 8 ∧
    (listSymbolsCmd asciiUpper twoFs 5 [py "A.arg", py "B.arg"]).1.length = 10 ∧
    (findSymbolsCmd asciiUpper (fun _ _ _ => []) twoFs 5
      [py "D", py "--end", py "A.arg", py "B.arg"]).1.length = 4 := by
  refine ⟨?_, ?_, ?_, twoFs_plain, twoFs_read, ?_, ?_, ?_⟩
  · exact Means.letters (cs := py "c") (os := [_]) (by decide)
      (List.Forall₂.cons (by decide) List.Forall₂.nil)
      (.plain (Or.inr (by decide)) (.plain (Or.inr (by decide)) .done))
  · exact .plain (Or.inr (by decide)) (Means.name (by decide)
      (abbrev_names.1 FIND_SYMBOLS_OPTS (by decide) _ (by decide) (py "end") (by decide) (by decide)
        (by decide)) (.plain (Or.inr (by decide)) (.plain (Or.inr (by decide)) .done)))
  · rintro ⟨d, -, d', -, hne, ⟨o, ho, e⟩, o', ho', e'⟩
    rw [List.mem_singleton] at ho ho'
    subst ho ho'
    exact hne (Option.some.inj (e.symm.trans e'))
  · decide +kernel
  · decide +kernel
  · decide +kernel

/-! ### C165 -/

theorem parseSymbolsV_build (v : Bool) (upper : Str → Str) (fs : FileSystem) (fuel : Nat)
    (files : List Str) (t : Symtab) (n k : Nat) :
    (parseSymbolsV v upper fs fuel files t n).1 = (buildFilesV v upper fs fuel true files t k).1 ∧
    (parseSymbolsV v upper fs fuel files t n).2.2 =
      (buildFilesV v upper fs fuel true files t k).2.2.2 := by
  induction files generalizing t n k with
  | nil => exact ⟨rfl, rfl⟩
  | cons f files ih =>
    rw [parseSymbolsV, buildFilesV]
    rcases buildV v upper fs fuel f t with ⟨o, b, r⟩
    cases r with
    | error e => exact ⟨rfl, rfl⟩
    | ok u =>
      obtain ⟨h1, h2⟩ := ih b.symtab b.errcount (k + b.errcount)
      simp only
      exact ⟨by rw [h1]; rfl, h2⟩

theorem inl_inr_inj {α β : Type} {a a' : List α} {b b' : List β}
    (h : a.map (Sum.inl (β := β)) ++ b.map Sum.inr = a'.map Sum.inl ++ b'.map Sum.inr) :
    a = a' ∧ b = b' := by
  induction a generalizing a' with
  | nil =>
    cases a' with
    | nil =>
      refine ⟨rfl, ?_⟩
      simp only [List.map_nil, List.nil_append] at h
      exact (List.map_inj_right fun _ _ => Sum.inr.inj).1 h
    | cons x a' =>
      cases b with
      | nil => cases h
      | cons y b => cases (List.cons.inj h).1
  | cons x a ih =>
    cases a' with
    | nil =>
      cases b' with
      | nil => cases h
      | cons y b => cases (List.cons.inj h).1
    | cons x' a' =>
      obtain ⟨h1, h2⟩ := List.cons.inj h
      obtain ⟨h3, h4⟩ := ih h2
      exact ⟨by rw [Sum.inl.inj h1, h3], h4⟩

theorem parseV_syms {v : Bool} {upper : Str → Str} {fs : FileSystem} {fuel : Nat} {debug : Bool}
    {args : List Str} {out : List (VMsg ParseMsg)} (hp : PlainFiles args)
    (h : parseV v upper fs fuel debug args = (out, .ok ())) :
    ∃ srcs rs, ∃ checks : List CheckMsg, Read fs args srcs ∧
      List.Forall₂ (FileReport upper true) srcs rs ∧
      out.filterMap usual = rs.flatten.map .inl ++ checks.map .inr := by
  unfold parseV at h
  split at h
  · cases h
  · obtain ⟨e1, e2⟩ := parseSymbolsV_build v upper fs fuel args [] 0 0
    obtain ⟨e3, e4⟩ := buildFilesV_run v upper fs fuel true args [] 0
    rcases hs : parseSymbolsV v upper fs fuel args [] 0 with ⟨o, ec, r⟩
    rw [hs] at h e1 e2
    cases r with
    | error e => cases h
    | ok u =>
      simp only at h e1 e2
      obtain ⟨l', n', b, b', r, k1, -, k3⟩ := parseDecksV_run (v := v) (debug := debug) fs fuel args
        (l := 0) (n := ec) (out' := []) adds_nil
      rw [k1] at h
      cases r with
      | error e => cases h
      | ok u =>
        simp only [Prod.mk.injEq, and_true] at h
        rw [e3] at e2
        rcases buildFilesRun_cases upper (fs := fs) (fuel := fuel) true (plainFiles_iff.1 hp)
          plain4_nil 0 [] with ⟨srcs, rs, t', n2, es', h1, h2, q1, -⟩ |
            ⟨pre, f, post, srcs, rs, t', n', e', h1, h2, h3, q1, -, -⟩
        · rw [q1, ← e1] at e4
          refine ⟨srcs, rs, b' ++ [.lines l', .errors n'], h1, h2, ?_⟩
          rw [← h, List.filterMap_append, List.filterMap_append, (adds_inl e4).1, k3.1,
            List.map_append, List.append_assoc]
          rfl
        · rw [q1] at e2
          cases e2

/-- C165: for a command line with files that can be read, parse reports the errors of each file; then
what is to be said about each source line, the number of lines and the number of errors: those of the
symbol table of the last file, and all lines with an unknown instruction. -/
theorem C165_parse (upper : Str → Str) (fs : FileSystem)
    (argv files : List Str) (os : List Opt) (srcs : List (Str × List Src)) (last : Str × List Src)
    (hm : Means PARSE_OPTS argv os files) (hh : ¬ ∃ o ∈ os, o.dest = none)
    (hl : srcs.getLast? = some last) (hne : ∀ f ∈ files, f ≠ []) (hp : PlainFiles files)
    (hr : Read fs files srcs) :
    ∃ n, ∀ m, n ≤ m → ∃ out rs ls, parseCmd upper fs m argv = (out, .ok ()) ∧
      List.Forall₂ (FileReport upper true) srcs rs ∧
      List.Forall₂ (LineSays (Given os (py "debug"))) (srcs.flatMap (·.2)) ls ∧
      out.filterMap usual = rs.flatten.map .inl ++ (ls.flatten ++
        [CheckMsg.lines (srcs.flatMap (·.2)).length,
         CheckMsg.errors (number last.2 (InError upper) + number (srcs.flatMap (·.2)) BadInstr)]).map .inr ∧
      (Given os (py "verbose") → ∃ a b, NotesAre fs files a ∧
        VerboseAdds fs (fun s => ∃ i, HasInstr s i) files b ∧ out.filterMap extra = a ++ b) ∧
      (¬ Given os (py "verbose") → out.filterMap extra = []) := by
  rcases means_values C153_good.2.2.2.2.2.1 hm with ⟨e, -⟩ | ⟨-, v, e, hv⟩
  · exact absurd e hh
  have hcmd : ∀ m, parseCmd upper fs m argv =
      parseV (decide (Given os (py "verbose"))) upper fs m (decide (Given os (py "debug"))) files := by
    intro m
    unfold parseCmd
    rw [e]
    simp only
    rw [hv (py "verbose") (by decide), hv (py "debug") (by decide)]
  have hf : files ≠ [] := by
    rintro rfl
    have := hr.1
    cases srcs with
    | nil => cases hl
    | cons a l => cases this
  obtain ⟨n, st, hn⟩ := C84_completes_partial upper fs files hf hne hp srcs hr
  refine ⟨n, fun m hm => ?_⟩
  rw [hcmd]
  have hst := hn m hm
  obtain ⟨srcs1, last1, hr1, hl1, -, h1, -, h2⟩ := C84_last_partial upper fs m files st hp hst
  obtain rfl := read_unique hr hr1
  obtain rfl : last = last1 := Option.some.inj (hl.symm.trans hl1)
  obtain ⟨o', hrun⟩ := (C138_ends upper fs m (decide (Given os (py "debug"))) files).1 st hst
  obtain ⟨syms, checks, c1, c2, c3⟩ := C151_parse (decide (Given os (py "verbose"))) upper fs m
    (decide (Given os (py "debug"))) files
  rw [hrun] at c3
  cases hV : parseV (decide (Given os (py "verbose"))) upper fs m (decide (Given os (py "debug")))
      files with
  | mk out r =>
    rw [hV] at c1 c3
    simp only [Prod.mk.injEq, ParseOut.mk.injEq] at c1 c3
    obtain ⟨⟨c3, -⟩, rfl⟩ := c3
    obtain ⟨srcs2, rs, checks', hr2, h4, h5⟩ := parseV_syms hp hV
    obtain rfl := read_unique hr hr2
    obtain ⟨rfl, rfl⟩ := inl_inr_inj (h5.symm.trans c1)
    obtain ⟨src, pre, k, hs, hout, hpre⟩ := parseV_shape hV
    obtain rfl := sources_unique (read_sources hr) hs
    have h6 := onStdout_usual out
    rw [h5, List.filterMap_append, List.filterMap_map, List.filterMap_map] at h6
    have h6 := h6.trans (congrArg₂ (· ++ ·) (List.filterMap_eq_nil_iff.2 fun _ _ => rfl)
      List.filterMap_some)
    rw [List.nil_append, hout, List.filterMap_append, List.filterMap_append, hpre, ← c3] at h6
    obtain ⟨h7, -⟩ := List.append_inj' h6 rfl
    refine ⟨out, rs, (srcs.flatMap (·.2)).map fun s =>
      cardMsgs ⟨false, false, false, decide (Given os (py "debug")), false, false⟩ (srcCard s),
      rfl, h4, ?_, ?_, ?_, ?_⟩
    · rw [List.forall₂_map_right_iff, List.forall₂_same]
      intro s _
      exact cardMsgs_says _ _ (by rw [decide_eq_true_eq]) s
    · rw [h5, ← c3, ← h7, h1, h2, List.flatMap_map, ← List.flatMap_def]
      unfold number
      rfl
    · intro hver
      rw [decide_eq_true hver] at hV
      obtain ⟨notes, ss, g1, g2, g3⟩ := C152_parse upper fs m _ files out hV
      exact ⟨_, _, ⟨notes, g1, rfl⟩, ⟨notes, ss, g1, g2, rfl⟩, g3⟩
    · intro hver
      rw [decide_eq_false hver] at hV
      rw [hV] at c2
      simp only at c2
      rw [c2, extra_msgs]

/-- C165: the same two files. The error of the first file is not in the number at the end. -/
example : Means PARSE_OPTS [py "A.arg", py "-d", py "B.arg"]
      [⟨py "-d", py "--debug", some (py "debug")⟩] [py "A.arg", py "B.arg"] ∧
    [(py "A.arg", twoA), (py "B.arg", twoB)].getLast? = some (py "B.arg", twoB) ∧
    (parseCmd asciiUpper twoFs 5 [py "A.arg", py "-d", py "B.arg"]).1.length = 8 ∧
    (match (parseCmd asciiUpper twoFs 5 [py "A.arg", py "-d", py "B.arg"]).1.getLast? with
      | some (.msg (.inr (.errors n))) => n
      | _ => 7) = 0 := by
  refine ⟨?_, rfl, by decide +kernel, by decide +kernel⟩
  exact .plain (Or.inr (by decide)) (Means.letters (cs := py "d") (os := [_]) (by decide)
    (List.Forall₂.cons (by decide) List.Forall₂.nil) (.plain (Or.inr (by decide)) .done))

end H800
