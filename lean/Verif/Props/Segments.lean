import Verif.Lemmas.Named
import Verif.Lemmas.SymTools
import Verif.Props.Symbols
import Verif.Props.DocumentsSym

/-!
Property C206: the segments of a symbol table. The README says that all code is assumed to be in the
same segment; the code takes the part of the name of the source file before its first dot.
-/

namespace H800

open Spec

/-! ### C206 -/

/-- The table of a list of files, as all tools make it: one file after the other, from an empty table. -/
def tableOf (upper : Str → Str) (fs : FileSystem) (fuel : Nat) (files : List Str) : Py Symtab :=
  files.foldlM (fun t f => do return (← buildSymbolTable upper fs fuel f t).symtab) []

/-- C206, the property as stated: all definitions of a table are in the same segment. -/
def C206_statement : Prop :=
  ∀ (upper : Str → Str) (fs : FileSystem) (fuel : Nat) (files : List Str) (t : Symtab),
    tableOf upper fs fuel files = .ok t →
    ∀ tag seg sub kind e tag' seg' sub' kind' e', Recorded t tag seg sub kind e →
      Recorded t tag' seg' sub' kind' e' → seg = seg'

theorem fold_segments (upper : Str → Str) (fs : FileSystem) (fuel : Nat) :
    ∀ (files : List Str) (t t' : Symtab),
      files.foldlM (fun t f => do return (← buildSymbolTable upper fs fuel f t).symtab) t = .ok t' →
      ∀ tag seg sub kind e, Recorded t' tag seg sub kind e →
        Recorded t tag seg sub kind e ∨ ∃ f ∈ files, BeforeFirst '.' f seg
  | [], t, t', h, _, _, _, _, _, hr => by cases h; exact .inl hr
  | f :: files, t, t', h, tag, seg, sub, kind, e, hr => by
    rw [List.foldlM_cons] at h
    cases hb : buildSymbolTable upper fs fuel f t with
    | error e => rw [hb] at h; cases h
    | ok b =>
      rw [hb] at h
      rcases fold_segments upper fs fuel files _ t' h tag seg sub kind e hr with h1 | ⟨g, hg, h1⟩
      · obtain ⟨out, -, hs⟩ := C69_sound upper fs fuel f t b hb
        rcases hs tag seg sub kind e h1 with h2 | ⟨h2, -⟩
        · exact .inl h2
        · exact .inr ⟨f, by simp, h2⟩
      · exact .inr ⟨g, by simp [hg], h1⟩

/-- C206, where it holds: the segments are the beginnings of the names of the files given, whatever the
files contain and include. So there is one segment if one file is given, or if the names of all begin
in the same way. -/
theorem C206_segments_partial (upper : Str → Str) (fs : FileSystem) (fuel : Nat) (files : List Str)
    (t : Symtab) (h : tableOf upper fs fuel files = .ok t) :
    (∀ tag seg sub kind e, Recorded t tag seg sub kind e → ∃ f ∈ files, BeforeFirst '.' f seg) ∧
    ((∀ f ∈ files, ∀ f' ∈ files, ∀ s s', BeforeFirst '.' f s → BeforeFirst '.' f' s' → s = s') →
      ∀ tag seg sub kind e tag' seg' sub' kind' e', Recorded t tag seg sub kind e →
        Recorded t tag' seg' sub' kind' e' → seg = seg') ∧
    (∀ f, files = [f] → ∀ tag seg sub kind e, Recorded t tag seg sub kind e → BeforeFirst '.' f seg) := by
  have h1 : ∀ tag seg sub kind e, Recorded t tag seg sub kind e → ∃ f ∈ files, BeforeFirst '.' f seg := by
    intro tag seg sub kind e hr
    rcases fold_segments upper fs fuel files [] t h tag seg sub kind e hr with ⟨d1, _, _, h0, -⟩ | h1
    · cases h0
    · exact h1
  refine ⟨h1, ?_, ?_⟩
  · intro hall tag seg sub kind e tag' seg' sub' kind' e' hr hr'
    obtain ⟨f, hf, hs⟩ := h1 _ _ _ _ _ hr
    obtain ⟨f', hf', hs'⟩ := h1 _ _ _ _ _ hr'
    exact hall f hf f' hf' _ _ hs hs'
  · rintro f rfl tag seg sub kind e hr
    obtain ⟨f', hf', hs⟩ := h1 _ _ _ _ _ hr
    simp only [List.mem_singleton] at hf'
    exact hf' ▸ hs

/-- C206, where it fails: every file that defines a tag has its segment in the table, so two files whose
names begin differently and that define tags make two. -/
theorem C206_occurs_partial (upper : Str → Str) (fs : FileSystem) (fuel : Nat) (files : List Str)
    (hp : PlainFiles files) (t : Symtab) (h : tableOf upper fs fuel files = .ok t) (f : Str) (hf : f ∈ files)
    (seg : Str) (hseg : BeforeFirst '.' f seg) (out : List Src) (hout : Expands fs f out) (i : Nat) (s : Src)
    (tag tt sub kind : Str) (hd : DefinesAt upper out i s tag tt sub kind) :
    ∃ e, Recorded t tag seg sub kind e := by
  have key : ∀ (files : List Str), PlainFiles files → f ∈ files → ∀ t0 : Symtab, PlainTable t0 →
      files.foldlM (fun t f => do return (← buildSymbolTable upper fs fuel f t).symtab) t0 = .ok t →
      ∃ e, Recorded t tag seg sub kind e := by
    intro files
    induction files with
    | nil => intro _ hf; cases hf
    | cons g files ih =>
      intro hp hf t0 ht0 h
      have hp' := plainFiles_iff.1 hp
      rw [List.foldlM_cons] at h
      cases hb : buildSymbolTable upper fs fuel g t0 with
      | error e => rw [hb] at h; cases h
      | ok b =>
        rw [hb] at h
        by_cases hg : f ∈ files
        · refine ih (fun g' hg' => hp g' (by simp [hg'])) hg _ ?_ h
          obtain ⟨_, _, _, h1⟩ := build_pure_ok (hp' g (by simp)) ((plain_iff t0).1 ht0) hb
          exact (plain_iff _).2 h1
        · have e : f = g := by simpa [hg] using hf
          subst e
          obtain ⟨j, s', tt', e, -, -, -, h1, -⟩ := C68_complete upper fs fuel f t0 seg hseg
            (hp f (by simp) seg hseg) ht0 b hb out hout i s tag tt sub kind hd
          exact C72_grows upper fs fuel files _ t h tag seg sub kind e h1
  exact key files hp hf [] (by intro _ _ h; cases h) h

/-- Two files with a tag each, the second in a segment by its first line, that includes a third. -/
def segFs : FileSystem := fun f =>
  if f = py "ONE.arg" then some (py "        A          TN\n")
  else if f = py "TWO.arg" then some (py
    "                   SEGMENT\n        B          TX\n$THREE.arg\n")
  else if f = py "THREE.arg" then some (py "        C          TX\n")
  else none

theorem segFs_table : ∃ t, tableOf asciiUpper segFs 10 [py "ONE.arg", py "TWO.arg"] = .ok t ∧
    (∃ e, Recorded t (py "A") (py "ONE") (py "1") (py "simple") e) ∧
    (∃ e, Recorded t (py "B") (py "TWO") (py "1") (py "simple") e) ∧
    (∃ e, Recorded t (py "C") (py "TWO") (py "1") (py "simple") e) := by
  have h : ((tableOf asciiUpper segFs 10 [py "ONE.arg", py "TWO.arg"]).toOption.map fun t =>
      ((lookup4 t (py "A") (py "ONE") (py "1") (py "simple")).isSome,
        (lookup4 t (py "B") (py "TWO") (py "1") (py "simple")).isSome,
        (lookup4 t (py "C") (py "TWO") (py "1") (py "simple")).isSome)) = some (true, true, true) := by
    decide +kernel
  cases ht : tableOf asciiUpper segFs 10 [py "ONE.arg", py "TWO.arg"] with
  | error e => rw [ht] at h; cases h
  | ok t =>
    rw [ht] at h
    simp only [Except.toOption, Option.map_some, Option.some.injEq, Prod.mk.injEq] at h
    simp only [recorded_iff]
    exact ⟨t, rfl, Option.isSome_iff_exists.1 h.1, Option.isSome_iff_exists.1 h.2.1,
      Option.isSome_iff_exists.1 h.2.2⟩

/-- The hypotheses of C206 for the second of these files and the line it includes. -/
example : PlainFiles [py "ONE.arg", py "TWO.arg"] ∧ BeforeFirst '.' (py "TWO.arg") (py "TWO") ∧
    Expands segFs (py "TWO.arg") [⟨py "TWO.arg", 1, py "                   SEGMENT\n"⟩,
      ⟨py "TWO.arg", 2, py "        B          TX\n"⟩, ⟨py "THREE.arg", 1, py "        C          TX\n"⟩] ∧
    DefinesAt asciiUpper [⟨py "TWO.arg", 1, py "                   SEGMENT\n"⟩,
      ⟨py "TWO.arg", 2, py "        B          TX\n"⟩, ⟨py "THREE.arg", 1, py "        C          TX\n"⟩]
      2 ⟨py "THREE.arg", 1, py "        C          TX\n"⟩ (py "C") (py " ") (py "1") (py "simple") := by
  refine ⟨?_, by have := beforeFirst '.' (py "TWO.arg"); exact this, ?_, ?_⟩
  · rw [plainFiles_iff]
    intro f hf
    simp only [List.mem_cons, List.not_mem_nil, or_false] at hf
    rcases hf with rfl | rfl <;> (unfold PlainSeg; decide)
  · exact ⟨_, rfl, .plain (by decide) (by decide) (.plain (by decide) (by decide)
      (.incl (name := py "THREE.arg") (inner := [⟨py "THREE.arg", 1, py "        C          TX\n"⟩])
        (firstWord_ok.1 rfl) rfl (.plain (by decide) (by decide) (.nil _ _)) (.nil _ _)))⟩
  · exact (definesAt_iff _ _ _ _ _ _ _ _).2 ⟨rfl, py "TX", rfl, rfl, rfl⟩

/-- C206 fails for these files. -/
theorem C206_refuted : ¬ C206_statement := by
  intro h
  obtain ⟨t, ht, ⟨e, h1⟩, ⟨e', h2⟩, -⟩ := segFs_table
  have := h _ _ _ _ t ht _ _ _ _ _ _ _ _ _ _ h1 h2
  revert this
  decide

end H800
