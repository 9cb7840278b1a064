import Verif.Model.LastWords
import Verif.Spec.LastWords
import Verif.Lemmas.Status
import Verif.Lemmas.Idle
import Verif.Props.Master
import Verif.Props.SymTrace

/-! Lemmas on what a tool says when it ends itself. -/

namespace H800
open Spec

section
variable {fs : FileSystem} {cls : CardClass} {width : Int} {fields : List Int}

theorem readLoopExit_comment (read : Str → Except (Option Str) Unit) (file : Str) (i : Nat) (l : Str)
    (ls : List Str) :
    Deck.readLoopExit fs cls width fields read file i (('#' :: l) :: ls) =
      Deck.readLoopExit fs cls width fields read file (i + 1) ls := by
  rw [Deck.readLoopExit]
  simp [startsWith]

theorem readLoopExit_include (read : Str → Except (Option Str) Unit) (file : Str) (i : Nat) (l : Str)
    (ls : List Str) :
    Deck.readLoopExit fs cls width fields read file i (('$' :: l) :: ls) =
      match firstWord l with
      | .error _ => .error none
      | .ok inc =>
        if (fs inc).isNone then .error (some (py "File \"" ++ inc ++ py "\" does not exist"))
        else
          match read inc with
          | .error e => .error e
          | .ok _ => Deck.readLoopExit fs cls width fields read file (i + 1) ls := by
  rw [Deck.readLoopExit]
  simp only [startsWith]
  rw [if_neg (by decide), if_pos (by decide)]
  rfl

theorem readLoopExit_plain (read : Str → Except (Option Str) Unit) (file : Str) (i : Nat) (l : Str)
    (ls : List Str) (h1 : l.head? ≠ some '#') (h2 : l.head? ≠ some '$') :
    Deck.readLoopExit fs cls width fields read file i (l :: ls) =
      match cls l width fields (some file) (i + 1) with
      | .error _ => .error none
      | .ok _ => Deck.readLoopExit fs cls width fields read file (i + 1) ls := by
  rw [Deck.readLoopExit]
  have e1 : startsWith l '#' = false := by
    rw [Bool.eq_false_iff]; exact fun e => h1 (startsWith_iff.1 e)
  have e2 : startsWith l '$' = false := by
    rw [Bool.eq_false_iff]; exact fun e => h2 (startsWith_iff.1 e)
  rw [e1, e2, if_neg (by decide), if_neg (by decide)]
  rfl

/-- The end of reading in both accounts. -/
def SameEnd (r : Py (List PunchCard)) (x : Except (Option Str) Unit) : Prop :=
  (∃ cs, r = .ok cs ∧ x = .ok ()) ∨ (∃ t, r = .error .systemExit ∧ x = .error (some t)) ∨
  ∃ e, r = .error e ∧ e ≠ .systemExit ∧ x = .error none

theorem readLoopExit_end (ht : Total cls width fields) {read : Str → Py (List PunchCard)}
    {exit : Str → Except (Option Str) Unit} (hr : ∀ f, SameEnd (read f) (exit f)) (file : Str) (i : Nat)
    (ls : List Str) :
    SameEnd (Deck.readLoop fs cls width fields true read file i ls)
      (Deck.readLoopExit fs cls width fields exit file i ls) := by
  induction ls generalizing i with
  | nil => exact .inl ⟨[], rfl, rfl⟩
  | cons l ls ih =>
    rcases line_cases l with ⟨t, rfl⟩ | ⟨t, rfl⟩ | ⟨h1, h2⟩
    · rw [readLoop_comment, readLoopExit_comment]
      exact ih (i + 1)
    · rw [readLoop_include, readLoopExit_include]
      cases hw : firstWord t with
      | error e =>
        refine .inr (.inr ⟨e, rfl, ?_, rfl⟩)
        rintro rfl
        rw [firstWord] at hw
        split at hw <;> cases hw
      | ok inc =>
        simp only [py_bind_ok]
        by_cases hn : (fs inc).isNone
        · rw [if_pos hn, if_pos hn]
          exact .inr (.inl ⟨_, rfl, rfl⟩)
        · rw [if_neg hn, if_neg hn]
          rcases hr inc with ⟨cs, e1, e2⟩ | ⟨t', e1, e2⟩ | ⟨e, e1, e3, e2⟩
          · rw [e1, e2]
            simp only [py_bind_ok]
            rcases ih (i + 1) with ⟨cs, e1, e2⟩ | ⟨t', e1, e2⟩ | ⟨e, e1, e3, e2⟩
            · rw [e1, e2]; exact .inl ⟨_, rfl, rfl⟩
            · rw [e1, e2]; exact .inr (.inl ⟨_, rfl, rfl⟩)
            · rw [e1, e2]; exact .inr (.inr ⟨_, rfl, e3, rfl⟩)
          · rw [e1, e2]; exact .inr (.inl ⟨_, rfl, rfl⟩)
          · rw [e1, e2]; exact .inr (.inr ⟨_, rfl, e3, rfl⟩)
    · rw [readLoop_plain _ _ _ _ _ _ h1 h2, readLoopExit_plain _ _ _ _ _ h1 h2]
      obtain ⟨c, hc⟩ := ht l (some file) (i + 1) h1
      rw [hc]
      simp only [py_bind_ok]
      rcases ih (i + 1) with ⟨cs, e1, e2⟩ | ⟨t', e1, e2⟩ | ⟨e, e1, e3, e2⟩
      · rw [e1, e2]; exact .inl ⟨_, rfl, rfl⟩
      · rw [e1, e2]; exact .inr (.inl ⟨_, rfl, rfl⟩)
      · rw [e1, e2]; exact .inr (.inr ⟨_, rfl, e3, rfl⟩)

theorem readSourceExit_end (ht : Total cls width fields) (fuel : Nat) (file : Str) :
    SameEnd (Deck.readSource fs cls width fields fuel true file)
      (Deck.readSourceExit fs cls width fields fuel file) := by
  induction fuel generalizing file with
  | zero => exact .inr (.inr ⟨_, rfl, nofun, rfl⟩)
  | succ fuel ih =>
    rw [Deck.readSource, Deck.readSourceExit]
    cases fs file with
    | none => exact .inr (.inl ⟨_, rfl, rfl⟩)
    | some text => exact readLoopExit_end ht ih file 0 _

theorem readLoopExit_gap (ht : Total cls width fields) {exit : Str → Except (Option Str) Unit}
    (hok : ∀ f, exit f = .ok () → ∃ src, Expands fs f src)
    (hr : ∀ f t, fs f ≠ none → exit f = .error (some t) →
      ∃ text g, fs f = some text ∧ MeetsGap fs (readlines text) g ∧
        t = py "File \"" ++ g ++ py "\" does not exist")
    {file : Str} {i : Nat} {ls : List Str} {t : Str}
    (h : Deck.readLoopExit fs cls width fields exit file i ls = .error (some t)) :
    ∃ g, MeetsGap fs ls g ∧ t = py "File \"" ++ g ++ py "\" does not exist" := by
  induction ls generalizing i with
  | nil => cases h
  | cons l ls ih =>
    rcases line_cases l with ⟨u, rfl⟩ | ⟨u, rfl⟩ | ⟨h1, h2⟩
    · rw [readLoopExit_comment] at h
      obtain ⟨g, hg, e⟩ := ih h
      exact ⟨g, .comment hg, e⟩
    · rw [readLoopExit_include] at h
      cases hw : firstWord u with
      | error e => rw [hw] at h; cases h
      | ok inc =>
        have hw' := firstWord_ok.1 hw
        rw [hw] at h
        simp only at h
        by_cases hn : (fs inc).isNone
        · rw [if_pos hn] at h
          cases h
          exact ⟨inc, .here hw' (Option.isNone_iff_eq_none.1 hn), rfl⟩
        · rw [if_neg hn] at h
          have hne : fs inc ≠ none := fun e => hn (Option.isNone_iff_eq_none.2 e)
          cases he : exit inc with
          | error e =>
            rw [he] at h
            cases h
            obtain ⟨text, g, e1, e2, e3⟩ := hr inc t hne he
            exact ⟨g, .inside hw' e1 e2, e3⟩
          | ok _ =>
            rw [he] at h
            obtain ⟨g, hg, e⟩ := ih h
            obtain ⟨src, hs⟩ := hok inc he
            exact ⟨g, .past hw' hs hg, e⟩
    · rw [readLoopExit_plain _ _ _ _ _ h1 h2] at h
      obtain ⟨c, hc⟩ := ht l (some file) (i + 1) h1
      rw [hc] at h
      obtain ⟨g, hg, e⟩ := ih h
      exact ⟨g, .plain h1 h2 hg, e⟩

theorem readSourceExit_expands (ht : Total cls width fields) {fuel : Nat} {file : Str}
    (h : Deck.readSourceExit fs cls width fields fuel file = .ok ()) : ∃ src, Expands fs file src := by
  rcases readSourceExit_end (fs := fs) ht fuel file with ⟨cs, e1, e2⟩ | ⟨t', e1, e2⟩ | ⟨e, e1, e3, e2⟩
  · obtain ⟨out, h1, -⟩ := readSource_sound e1
    exact ⟨out, h1⟩
  · rw [h] at e2; cases e2
  · rw [h] at e2; cases e2

theorem readSourceExit_sound (ht : Total cls width fields) {fuel : Nat} {file t : Str}
    (h : Deck.readSourceExit fs cls width fields fuel file = .error (some t)) :
    SaysMissing fs file t := by
  induction fuel generalizing file t with
  | zero => cases h
  | succ fuel ih =>
    rw [Deck.readSourceExit] at h
    cases hf : fs file with
    | none => rw [hf] at h; cases h; exact .inl ⟨hf, rfl⟩
    | some text =>
      rw [hf] at h
      obtain ⟨g, h1, h2⟩ := readLoopExit_gap ht (fun f => readSourceExit_expands ht) (fun f t hn he => by
        rcases ih he with ⟨e, -⟩ | h
        · exact absurd e hn
        · exact h) h
      exact .inr ⟨text, g, hf, h1, h2⟩

theorem readSourceExit_ok (ht : Total cls width fields) {file : Str} {src : List Src}
    (h : Expands fs file src) :
    ∃ n, ∀ m, n ≤ m → Deck.readSourceExit fs cls width fields m file = .ok () := by
  obtain ⟨cards, hm⟩ := srcs_total ht (expands_ne h)
  obtain ⟨n, hn⟩ := readSource_complete h hm
  refine ⟨n, fun m hm => ?_⟩
  rcases readSourceExit_end (fs := fs) ht m file with ⟨cs, e1, e2⟩ | ⟨t', e1, e2⟩ | ⟨e, e1, e3, e2⟩
  · exact e2
  · rw [hn m hm] at e1; cases e1
  · rw [hn m hm] at e1; cases e1

theorem gap_complete (ht : Total cls width fields) {ls : List Str} {g : Str} (h : MeetsGap fs ls g) :
    ∃ n, ∀ m, n ≤ m → ∀ file i, Deck.readLoopExit fs cls width fields
      (Deck.readSourceExit fs cls width fields m) file i ls =
        .error (some (py "File \"" ++ g ++ py "\" does not exist")) := by
  induction h with
  | comment _ ih =>
    obtain ⟨n, hn⟩ := ih
    exact ⟨n, fun m hm file i => by rw [readLoopExit_comment]; exact hn m hm _ _⟩
  | plain h1 h2 _ ih =>
    obtain ⟨n, hn⟩ := ih
    refine ⟨n, fun m hm file i => ?_⟩
    rw [readLoopExit_plain _ _ _ _ _ h1 h2]
    obtain ⟨c, hc⟩ := ht _ (some file) (i + 1) h1
    rw [hc]
    exact hn m hm _ _
  | past hw hs _ ih =>
    obtain ⟨n, hn⟩ := ih
    obtain ⟨n', hn'⟩ := readSourceExit_ok (cls := cls) (width := width) (fields := fields) ht hs
    obtain ⟨text, hf, -⟩ := hs
    refine ⟨max n n', fun m hm file i => ?_⟩
    rw [readLoopExit_include, firstWord_ok.2 hw]
    simp only
    rw [hf, if_neg (by simp), hn' m (by omega)]
    exact hn m (by omega) _ _
  | inside hw hf _ ih =>
    obtain ⟨n, hn⟩ := ih
    refine ⟨n + 1, fun m hm file i => ?_⟩
    rw [readLoopExit_include, firstWord_ok.2 hw]
    simp only
    obtain ⟨k, rfl⟩ : ∃ k, m = k + 1 := ⟨m - 1, by omega⟩
    rw [hf, if_neg (by simp), Deck.readSourceExit, hf]
    simp only
    rw [hn k (by omega)]
  | here hw hf =>
    refine ⟨0, fun m _ file i => ?_⟩
    rw [readLoopExit_include, firstWord_ok.2 hw]
    simp only
    rw [hf, if_pos (by simp)]

theorem readSourceExit_complete (ht : Total cls width fields) {file t : Str}
    (h : SaysMissing fs file t) :
    ∃ n, ∀ m, n ≤ m → Deck.readSourceExit fs cls width fields m file = .error (some t) := by
  rcases h with ⟨hf, rfl⟩ | ⟨text, g, hf, hg, rfl⟩
  · refine ⟨1, fun m hm => ?_⟩
    obtain ⟨k, rfl⟩ : ∃ k, m = k + 1 := ⟨m - 1, by omega⟩
    rw [Deck.readSourceExit, hf]
  · obtain ⟨n, hn⟩ := gap_complete (cls := cls) (width := width) (fields := fields) ht hg
    refine ⟨n + 1, fun m hm => ?_⟩
    obtain ⟨k, rfl⟩ : ∃ k, m = k + 1 := ⟨m - 1, by omega⟩
    rw [Deck.readSourceExit, hf]
    exact hn k (by omega) _ _

end

/-- The end of reading a deck in both accounts. -/
theorem deckExit_end (fs : FileSystem) (fuel : Nat) (f : Str) :
    (∃ cs, deckCards fs fuel f = .ok cs ∧ deckExit fs fuel f = none) ∨
    (∃ t, deckCards fs fuel f = .error .systemExit ∧ deckExit fs fuel f = some t) ∨
    ∃ e, deckCards fs fuel f = .error e ∧ e ≠ .systemExit ∧ deckExit fs fuel f = none := by
  by_cases hf : f = []
  · subst hf
    exact .inr (.inr ⟨_, rfl, nofun, rfl⟩)
  · have hx : deckExit fs fuel f =
        match Deck.readSourceExit fs argusClass DEFAULT_WIDTH DEFAULT_FIELDS fuel f with
        | .error t => t
        | .ok _ => none := by
      unfold deckExit
      rw [if_neg hf]
      rfl
    rcases readSourceExit_end (fs := fs) total_argus fuel f with
      ⟨cs, e1, e2⟩ | ⟨t, e1, e2⟩ | ⟨e, e1, e3, e2⟩ <;>
    rcases deckCards_direct fs fuel hf with ⟨e', d1, d2⟩ | ⟨cards, cs', d1, d2, d3⟩
    · rw [e1] at d1; cases d1
    · exact .inl ⟨cs', d3, by rw [hx, e2]⟩
    · rw [e1] at d1; cases d1
      exact .inr (.inl ⟨t, d2, by rw [hx, e2]⟩)
    · rw [e1] at d1; cases d1
    · rw [e1] at d1; cases d1
      exact .inr (.inr ⟨e, d2, e3, by rw [hx, e2]⟩)
    · rw [e1] at d1; cases d1

theorem deckExit_sound {fs : FileSystem} {fuel : Nat} {f t : Str} (h : deckExit fs fuel f = some t) :
    f ≠ [] ∧ SaysMissing fs f t := by
  unfold deckExit at h
  split at h
  · cases h
  · rename_i hf
    refine ⟨hf, ?_⟩
    cases hr : Deck.readSourceExit fs argusClass DEFAULT_WIDTH DEFAULT_FIELDS fuel f with
    | error t' =>
      rw [hr] at h
      simp only at h
      subst h
      exact readSourceExit_sound total_argus hr
    | ok _ => rw [hr] at h; cases h

theorem deckExit_complete {fs : FileSystem} {f t : Str} (hf : f ≠ []) (h : SaysMissing fs f t) :
    ∃ n, ∀ m, n ≤ m → deckExit fs m f = some t := by
  obtain ⟨n, hn⟩ := readSourceExit_complete total_argus h
  refine ⟨n, fun m hm => ?_⟩
  unfold deckExit
  rw [if_neg hf, hn m hm]

theorem saysMissing_unique {fs : FileSystem} {f t t' : Str} (h : SaysMissing fs f t)
    (h' : SaysMissing fs f t') : t = t' := by
  obtain ⟨n, hn⟩ := readSourceExit_complete total_argus h
  obtain ⟨n', hn'⟩ := readSourceExit_complete total_argus h'
  have := (hn (max n n') (by omega)).symm.trans (hn' (max n n') (by omega))
  cases this
  rfl

theorem saysMissing_expands {fs : FileSystem} {f t : Str} {src : List Src} (h : SaysMissing fs f t)
    (h' : Expands fs f src) : False := by
  obtain ⟨n, hn⟩ := readSourceExit_complete total_argus h
  obtain ⟨n', hn'⟩ := readSourceExit_ok total_argus h'
  have := (hn (max n n') (by omega)).symm.trans (hn' (max n n') (by omega))
  cases this

theorem meetsGap_missing {fs : FileSystem} {ls : List Str} {g : Str} (h : MeetsGap fs ls g) :
    fs g = none := by
  induction h with
  | comment _ ih => exact ih
  | plain _ _ _ ih => exact ih
  | past _ _ _ ih => exact ih
  | inside _ _ _ ih => exact ih
  | here _ h => exact h

theorem filesSay_cons {fs : FileSystem} {f : Str} {files : List Str} {t : Str} :
    FilesSay fs (f :: files) t ↔ f ≠ [] ∧
      (SaysMissing fs f t ∨ (∃ src, Expands fs f src) ∧ FilesSay fs files t) := by
  constructor
  · rintro ⟨pre, g, post, e, h1, h2, h3⟩
    cases pre with
    | nil => cases e; exact ⟨h2, .inl h3⟩
    | cons a pre =>
      cases e
      obtain ⟨h4, h5⟩ := h1 f List.mem_cons_self
      exact ⟨h4, .inr ⟨h5, pre, g, post, rfl, fun x hx => h1 x (List.mem_cons_of_mem _ hx), h2, h3⟩⟩
  · rintro ⟨h1, h2 | ⟨h2, pre, g, post, rfl, h3, h4, h5⟩⟩
    · exact ⟨[], f, files, rfl, (fun x hx => nomatch hx), h1, h2⟩
    · refine ⟨f :: pre, g, post, rfl, ?_, h4, h5⟩
      intro x hx
      rcases List.mem_cons.1 hx with rfl | hx
      · exact ⟨h1, h2⟩
      · exact h3 x hx

/-- The three ways of a file, in the end. -/
theorem deck_ways (fs : FileSystem) (f : Str) :
    (∃ n src, f ≠ [] ∧ Expands fs f src ∧ ∀ m, n ≤ m → deckCards fs m f = .ok (src.map srcCard)) ∨
    (∃ n t, f ≠ [] ∧ SaysMissing fs f t ∧
      ∀ m, n ≤ m → deckCards fs m f = .error .systemExit ∧ deckExit fs m f = some t) ∨
    ((∀ t, ¬ (f ≠ [] ∧ SaysMissing fs f t)) ∧ (∀ src, ¬ (f ≠ [] ∧ Expands fs f src)) ∧
      ∀ m, (∃ e, deckCards fs m f = .error e) ∧ deckExit fs m f = none) := by
  by_cases h1 : ∃ src, f ≠ [] ∧ Expands fs f src
  · obtain ⟨src, h1, h2⟩ := h1
    obtain ⟨n, hn⟩ := deckCards_complete h1 h2
    exact .inl ⟨n, src, h1, h2, hn⟩
  by_cases h2 : ∃ t, f ≠ [] ∧ SaysMissing fs f t
  · obtain ⟨t, h2, h3⟩ := h2
    obtain ⟨n, hn⟩ := deckExit_complete h2 h3
    refine .inr (.inl ⟨n, t, h2, h3, fun m hm => ⟨?_, hn m hm⟩⟩)
    rcases deckExit_end fs m f with ⟨cs, e1, e2⟩ | ⟨t', e1, e2⟩ | ⟨e, e1, -, e2⟩
    · rw [hn m hm] at e2; cases e2
    · exact e1
    · rw [hn m hm] at e2; cases e2
  · refine .inr (.inr ⟨fun t h => h2 ⟨t, h⟩, fun src h => h1 ⟨src, h⟩, fun m => ?_⟩)
    rcases deckExit_end fs m f with ⟨cs, e1, e2⟩ | ⟨t', e1, e2⟩ | ⟨e, e1, -, e2⟩
    · obtain ⟨h3, src, h4, -⟩ := deckCards_ok e1
      exact absurd ⟨src, h3, h4⟩ h1
    · exact absurd ⟨t', deckExit_sound e2⟩ h2
    · exact ⟨⟨e, e1⟩, e2⟩

theorem filesExit_iff (fs : FileSystem) (files : List Str) :
    ∃ n, ∀ m, n ≤ m → ∀ t, filesExit fs m files = some t ↔ FilesSay fs files t := by
  induction files with
  | nil =>
    refine ⟨0, fun m _ t => ⟨nofun, ?_⟩⟩
    rintro ⟨pre, f, post, h, -⟩
    cases pre <;> cases h
  | cons f files ih =>
    obtain ⟨n, hn⟩ := ih
    rcases deck_ways fs f with ⟨k, src, h1, h2, h3⟩ | ⟨k, t, h1, h2, h3⟩ | ⟨h1, h2, h3⟩
    · refine ⟨max n k, fun m hm t => ?_⟩
      rw [filesExit, h3 m (by omega), filesSay_cons]
      simp only
      rw [hn m (by omega)]
      exact ⟨fun h => ⟨h1, .inr ⟨⟨src, h2⟩, h⟩⟩, fun h => h.2.elim
        (fun h => (saysMissing_expands h h2).elim) And.right⟩
    · refine ⟨k, fun m hm t' => ?_⟩
      rw [filesExit, (h3 m hm).1, filesSay_cons]
      simp only
      rw [(h3 m hm).2]
      constructor
      · rintro ⟨⟩; exact ⟨h1, .inl h2⟩
      · rintro ⟨-, h | ⟨⟨src, h⟩, -⟩⟩
        · rw [saysMissing_unique h2 h]
        · exact (saysMissing_expands h2 h).elim
    · refine ⟨0, fun m _ t => ?_⟩
      obtain ⟨⟨e, he⟩, hx⟩ := h3 m
      rw [filesExit, he, filesSay_cons]
      simp only
      rw [hx]
      refine ⟨nofun, ?_⟩
      rintro ⟨h4, h | ⟨⟨src, h⟩, -⟩⟩
      · exact absurd ⟨h4, h⟩ (h1 t)
      · exact absurd ⟨h4, h⟩ (h2 src)

theorem symFilesExit_eq {upper : Str → Str} {fs : FileSystem} {fuel : Nat} {files : List Str}
    (hp : ∀ f ∈ files, PlainSeg (splitFirst f '.')) {t : Symtab} (ht : Plain4 t) :
    symFilesExit upper fs fuel files t = filesExit fs fuel files := by
  induction files generalizing t with
  | nil => rfl
  | cons f files ih =>
    rw [symFilesExit, filesExit]
    cases hd : deckCards fs fuel f with
    | error e =>
      unfold buildSymbolTable
      rw [hd]
      rfl
    | ok cs =>
      obtain ⟨-, out, -, rfl⟩ := deckCards_ok hd
      obtain ⟨-, h2, h3⟩ := buildRun_pure upper (hp f List.mem_cons_self) ht hd
      rw [h2]
      exact ih (fun g hg => hp g (List.mem_cons_of_mem _ hg)) h3

end H800
