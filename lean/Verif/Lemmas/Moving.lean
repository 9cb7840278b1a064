import Verif.Model.Moving
import Verif.Spec.Moving
import Verif.Lemmas.Tools

/-! Lemmas on files that change while they are read. -/

namespace H800

open Spec

/-- The files are as they are when they are opened. -/
def SeenIn (w : World) (fs : FileSystem) (os : List (Str × Nat)) : Prop := ∀ p ∈ os, fs p.1 = w p.2 p.1

theorem seenIn_append {w : World} {fs : FileSystem} {a b : List (Str × Nat)} :
    SeenIn w fs (a ++ b) ↔ SeenIn w fs a ∧ SeenIn w fs b := by
  simp only [SeenIn, List.mem_append]
  exact ⟨fun h => ⟨fun p hp => h p (.inl hp), fun p hp => h p (.inr hp)⟩,
    fun h p hp => hp.elim (h.1 p) (h.2 p)⟩

theorem moments_append {t a b t' : Nat} {os os' : List (Str × Nat)} (h : Moments t a os)
    (h' : Moments b t' os') (h1 : t ≤ a) (h2 : a ≤ b) (h3 : b ≤ t') : Moments t t' (os ++ os') := by
  refine ⟨?_, fun p hp => ?_⟩
  · rw [List.map_append, List.pairwise_append]
    refine ⟨h.1, h'.1, fun x hx y hy => ?_⟩
    obtain ⟨p, hp, rfl⟩ := List.mem_map.1 hx
    obtain ⟨q, hq, rfl⟩ := List.mem_map.1 hy
    have := (h.2 p hp).2
    have := (h'.2 q hq).1
    omega
  · rcases List.mem_append.1 hp with hp | hp
    · have := h.2 p hp; omega
    · have := h'.2 p hp; omega

theorem moments_nil (t t' : Nat) : Moments t t' [] := ⟨.nil, nofun⟩

theorem moments_one {t t' : Nat} (g : Str) (h : t < t') : Moments t t' [(g, t)] :=
  ⟨List.pairwise_singleton _ _, fun p hp => by
    rw [List.mem_singleton] at hp
    subst hp
    exact ⟨Nat.le_refl _, h⟩⟩

theorem sighted_append {w : World} {a b : List (Str × Nat)} (ha : Sighted w a) (hb : Sighted w b) :
    Sighted w (a ++ b) := fun p hp => (List.mem_append.1 hp).elim (ha p) (hb p)

/-- What is read of files as they are when they are opened. -/
theorem expand_seen {w : World} {fs : FileSystem} {file : Str} {i : Nat} {ls : List Str} {out : List Src}
    {os : List (Str × Nat)} (h : ExpandT w file i ls out os) (hs : SeenIn w fs os) :
    Expand fs file i ls out := by
  induction h with
  | nil => exact .nil _ _
  | comment _ ih => exact .comment (ih hs)
  | @incl file i l ls name text s inner out os os' h1 h2 _ _ ih ih' =>
    rw [List.cons_append] at hs
    have h3 := seenIn_append.1 (fun p hp => hs p (List.mem_cons_of_mem _ hp) : SeenIn w fs (os ++ os'))
    exact .incl h1 ((hs (name, s) List.mem_cons_self).trans h2) (ih h3.1) (ih' h3.2)
  | plain h1 h2 _ ih => exact .plain h1 h2 (ih hs)

theorem expands_seen {w : World} {fs : FileSystem} {file : Str} {out : List Src} {os : List (Str × Nat)}
    (h : ExpandsT w file out os) (hs : SeenIn w fs os) : Expands fs file out := by
  obtain ⟨s, text, os', h1, h2, rfl⟩ := h
  exact ⟨text, (hs (file, s) List.mem_cons_self).trans h1,
    expand_seen h2 fun p hp => hs p (List.mem_cons_of_mem _ hp)⟩

/-! ### Reading a file -/

section

variable {w : World} {cls : CardClass} {width : Int} {fields : List Int}

/-- What a reading that ends well gives. -/
def ReadWell (w : World) (cls : CardClass) (width : Int) (fields : List Int) (fuel t : Nat) (file : Str)
    (t' : Nat) (cards : List PunchCard) : Prop :=
  t ≤ t' ∧ ∃ out os, ExpandsT w file out os ∧ out.mapM (mkCard cls width fields) = .ok cards ∧
    Moments t t' os ∧ Sighted w os ∧ t' + 1 = t + 3 * os.length ∧
    ∀ fs, SeenIn w fs os → Deck.readSource fs cls width fields fuel true file = .ok cards

theorem readLoopT_sound {fuel : Nat} {read : Nat → Str → Nat × Py (List PunchCard)}
    (hread : ∀ t name t' cs, read t name = (t', .ok cs) → ReadWell w cls width fields fuel t name t' cs)
    {file : Str} {i t t' : Nat} {ls : List Str} {cards : List PunchCard}
    (h : Deck.readLoopT w cls width fields read file i t ls = (t', .ok cards)) :
    t ≤ t' ∧ ∃ out os, ExpandT w file (i + 1) ls out os ∧ out.mapM (mkCard cls width fields) = .ok cards ∧
      Moments t t' os ∧ Sighted w os ∧ t' = t + 3 * os.length ∧
      ∀ fs, SeenIn w fs os → Deck.readLoop fs cls width fields true
        (Deck.readSource fs cls width fields fuel true) file i ls = .ok cards := by
  induction ls generalizing i t t' cards with
  | nil =>
    rw [Deck.readLoopT] at h
    cases h
    exact ⟨Nat.le_refl _, [], [], .nil _ _, rfl, moments_nil _ _, nofun, rfl, fun _ _ => rfl⟩
  | cons l ls ih =>
    rw [Deck.readLoopT] at h
    rcases line_cases l with ⟨u, rfl⟩ | ⟨u, rfl⟩ | ⟨h1, h2⟩
    · rw [if_pos (by simp [startsWith])] at h
      obtain ⟨h0, out, os, a1, a2, a3, a5, a6, a4⟩ := ih h
      exact ⟨h0, out, os, .comment a1, a2, a3, a5, a6, fun fs hfs => by
        rw [readLoop_comment]; exact a4 fs hfs⟩
    · rw [if_neg (by simp [startsWith]), if_pos (by simp [startsWith])] at h
      simp only [List.drop_succ_cons, List.drop_zero] at h
      cases hw : firstWord u with
      | error e => rw [hw] at h; cases h
      | ok inc =>
        rw [hw] at h
        simp only at h
        cases hn : (w t inc).isNone with
        | true => rw [hn] at h; cases h
        | false =>
          rw [hn] at h
          simp only [Bool.false_eq_true, if_false] at h
          rcases hr : read (t + 1) inc with ⟨t1, _ | ic⟩
          · rw [hr] at h; cases h
          · rw [hr] at h
            simp only at h
            rcases hl : Deck.readLoopT w cls width fields read file (i + 1) t1 ls with ⟨t2, _ | rc⟩
            · rw [hl] at h; cases h
            · rw [hl] at h
              cases h
              obtain ⟨b0, out1, os1, ⟨s, text, os1', c1, c2, rfl⟩, b2, b3, b5, b6, b4⟩ := hread _ _ _ _ hr
              obtain ⟨h0, out, os, a1, a2, a3, a5, a6, a4⟩ := ih hl
              refine ⟨by omega, _, _, .incl (firstWord_ok.1 hw) c1 c2 a1,
                mapM_append_ok.2 ⟨_, _, b2, a2, rfl⟩, ?_, sighted_append b5 a5, ?_, fun fs hfs => ?_⟩
              · exact moments_append (a := t1) (b := t1)
                  ⟨b3.1, fun p hp => ⟨by have := (b3.2 p hp).1; omega, (b3.2 p hp).2⟩⟩ a3 (by omega)
                  (Nat.le_refl _) h0
              · simp only [List.length_append, List.length_cons] at b6 ⊢
                omega
              · have h3 := seenIn_append.1 hfs
                have h4 : fs inc = some text := (h3.1 (inc, s) List.mem_cons_self).trans c1
                rw [readLoop_include, hw]
                simp only [py_bind_ok, h4, Option.isNone_some, Bool.false_eq_true, if_false, b4 fs h3.1,
                  a4 fs h3.2, py_pure]
    · have e1 : startsWith l '#' = false := by
        rw [Bool.eq_false_iff]; exact fun e => h1 (startsWith_iff.1 e)
      have e2 : startsWith l '$' = false := by
        rw [Bool.eq_false_iff]; exact fun e => h2 (startsWith_iff.1 e)
      rw [if_neg (by simp [e1]), if_neg (by simp [e2])] at h
      cases hc : cls l width fields (some file) (i + 1) with
      | error e => rw [hc] at h; cases h
      | ok c =>
        rw [hc] at h
        simp only at h
        rcases hl : Deck.readLoopT w cls width fields read file (i + 1) t ls with ⟨t2, _ | rc⟩
        · rw [hl] at h; cases h
        · rw [hl] at h
          cases h
          obtain ⟨h0, out, os, a1, a2, a3, a5, a6, a4⟩ := ih hl
          refine ⟨h0, _, os, .plain h1 h2 a1, mapM_cons_ok.2 ⟨_, _, ?_, a2, rfl⟩, a3, a5, a6,
            fun fs hfs => ?_⟩
          · unfold mkCard; exact hc
          · rw [readLoop_plain _ _ _ _ _ _ h1 h2, hc]
            simp only [py_bind_ok, a4 fs hfs, py_pure]

theorem readSourceT_sound {fuel : Nat} : ∀ {t : Nat} {file : Str} {t' : Nat} {cards : List PunchCard},
    Deck.readSourceT w cls width fields fuel t file = (t', .ok cards) →
    ReadWell w cls width fields fuel t file t' cards := by
  induction fuel with
  | zero => intro t file t' cards h; cases h
  | succ fuel ih =>
    intro t file t' cards h
    rw [Deck.readSourceT] at h
    cases hn : (w t file).isNone with
    | true => rw [hn] at h; cases h
    | false =>
      rw [hn] at h
      simp only [Bool.false_eq_true, if_false] at h
      cases hf : w (t + 1) file with
      | none => rw [hf] at h; cases h
      | some text =>
        rw [hf] at h
        obtain ⟨h0, out, os, a1, a2, a3, a5, a6, a4⟩ := readLoopT_sound (fun _ _ _ _ => ih) h
        refine ⟨by omega, out, _, ⟨t + 1, text, os, hf, a1, rfl⟩, a2, ?_, ?_, ?_, fun fs hfs => ?_⟩
        · exact moments_append (os := [(file, t + 1)]) (a := t + 2) (b := t + 2)
            ⟨List.pairwise_singleton _ _, fun p hp => by
              rw [List.mem_singleton] at hp; subst hp; constructor <;> simp⟩
            a3 (by omega) (Nat.le_refl _) h0
        · refine sighted_append (a := [(file, t + 1)]) (fun p hp => ?_) a5
          rw [List.mem_singleton] at hp
          subst hp
          exact ⟨t, rfl, fun e => by rw [e] at hn; cases hn⟩
        · rw [List.length_cons]; omega
        · rw [Deck.readSource, (hfs (file, t + 1) List.mem_cons_self).trans hf]
          exact a4 fs fun p hp => hfs p (List.mem_cons_of_mem _ hp)

end

/-! ### Decks and files -/

theorem deckCards_cons (fs : FileSystem) (fuel : Nat) (c : Char) (f : Str) :
    deckCards fs fuel (c :: f) =
      (Deck.readSource fs argusClass DEFAULT_WIDTH DEFAULT_FIELDS fuel true (c :: f)).bind finishCards := by
  unfold deckCards ArgusDeck.init Deck.init
  cases hr : Deck.readSource fs argusClass DEFAULT_WIDTH DEFAULT_FIELDS fuel true (c :: f) with
  | error e => simp only [hr]; rfl
  | ok cards =>
    simp only [hr, py_bind_ok, Except.bind, finishCards]
    cases hc : Deck.collect (cards.map (·.line)) cards with
    | error e => rfl
    | ok d =>
      simp only [py_bind_ok]
      cases ArgusDeck.findLog d.cards with
      | error e => rfl
      | ok l => rfl

theorem expandT_ne {w : World} {file : Str} {i : Nat} {ls : List Str} {out : List Src}
    {os : List (Str × Nat)} (h : ExpandT w file i ls out os) : ∀ s ∈ out, s.text.head? ≠ some '#' := by
  induction h with
  | nil => intro s hs; cases hs
  | comment _ ih => exact ih
  | incl _ _ _ _ ih ih' =>
    intro s hs
    exact (List.mem_append.1 hs).elim (ih s) (ih' s)
  | plain h1 _ _ ih =>
    intro s hs
    rcases List.mem_cons.1 hs with rfl | hs
    · exact h1
    · exact ih s hs

theorem deckCardsT_sound {w : World} {fuel t t' : Nat} {f : Str} {cards : List CodeCard}
    (h : deckCardsT w fuel t f = (t', .ok cards)) :
    t ≤ t' ∧ ∃ out os, ExpandsT w f out os ∧ cards = out.map srcCard ∧ Moments t t' os ∧
      Sighted w os ∧ t' + 1 = t + 3 * os.length ∧ ∀ fs, SeenIn w fs os → deckCards fs fuel f = .ok cards := by
  cases f with
  | nil => cases h
  | cons c f =>
    rw [deckCardsT] at h
    rcases hr : Deck.readSourceT w argusClass DEFAULT_WIDTH DEFAULT_FIELDS fuel t (c :: f) with ⟨t1, _ | cs⟩
    · rw [hr] at h; cases h
    · rw [hr] at h
      simp only [Prod.mk.injEq] at h
      obtain ⟨rfl, h⟩ := h
      obtain ⟨h0, out, os, a1, a2, a3, a5, a6, a4⟩ := readSourceT_sound hr
      have h5 : ∀ fs, SeenIn w fs os → deckCards fs fuel (c :: f) = .ok cards := fun fs hfs => by
        rw [deckCards_cons, a4 fs hfs]; exact h
      refine ⟨h0, out, os, a1, ?_, a3, a5, a6, h5⟩
      have hne : ∀ s ∈ out, s.text.head? ≠ some '#' := by
        obtain ⟨s, text, os', -, b1, -⟩ := a1
        exact expandT_ne b1
      obtain ⟨⟨l, hl⟩, h2⟩ := findLog_ok hne a2
      unfold finishCards at h
      cases hcol : Deck.collect (cs.map (·.line)) cs with
      | error e => rw [hcol] at h; cases h
      | ok d =>
        rw [hcol] at h
        have hd : d.cards = cs := by
          unfold Deck.collect at hcol
          cases hb : cs.mapM PunchCard.getBody with
          | error e => rw [hb] at hcol; cases hcol
          | ok b => rw [hb] at hcol; cases hcol; rfl
        simp only [py_bind_ok, hd, hl, h2] at h
        exact (Except.ok.inj h).symm

/-- The loop over the files when nothing changes. -/
def filesFs {σ : Type} (fs : FileSystem) (fuel : Nat) (step : σ → Str → List CodeCard → Py σ)
    (files : List Str) (st : σ) : Py σ :=
  files.foldlM (fun st f => do step st f (← deckCards fs fuel f)) st

theorem filesT_sound {σ : Type} {w : World} {fuel : Nat} {step : σ → Str → List CodeCard → Py σ}
    {files : List Str} : ∀ {t t' : Nat} {st st' : σ}, filesT w fuel step t files st = (t', .ok st') →
    t ≤ t' ∧ ∃ outs os, ReadsT w files outs os ∧ (Moments t t' os ∧ Sighted w os ∧
      t' + files.length = t + 3 * os.length) ∧
      (List.zip files outs).foldlM (fun st p => step st p.1 (p.2.map srcCard)) st = .ok st' ∧
      ∀ fs, SeenIn w fs os → filesFs fs fuel step files st = .ok st' := by
  induction files with
  | nil =>
    intro t t' st st' h
    cases h
    exact ⟨Nat.le_refl _, [], [], .nil, ⟨moments_nil _ _, nofun, rfl⟩, rfl, fun _ _ => rfl⟩
  | cons f files ih =>
    intro t t' st st' h
    rw [filesT] at h
    rcases hd : deckCardsT w fuel t f with ⟨t1, _ | cards⟩
    · rw [hd] at h; cases h
    · rw [hd] at h
      simp only at h
      cases hs : step st f cards with
      | error e => rw [hs] at h; cases h
      | ok st1 =>
        rw [hs] at h
        obtain ⟨h0, out, os, a1, rfl, a3, a5, a6, a4⟩ := deckCardsT_sound hd
        obtain ⟨h0', outs, os', b1, ⟨b2, b5, b6⟩, b3, b4⟩ := ih h
        refine ⟨by omega, out :: outs, os ++ os', .cons a1 b1,
          ⟨moments_append a3 b2 h0 (Nat.le_refl _) h0', sighted_append a5 b5, ?_⟩, ?_, fun fs hfs => ?_⟩
        · simp only [List.length_append, List.length_cons]; omega
        · rw [List.zip_cons_cons, List.foldlM_cons]
          simp only [hs, py_bind_ok, b3]
        · have h3 := seenIn_append.1 hfs
          have := b4 fs h3.2
          unfold filesFs at this ⊢
          rw [List.foldlM_cons, a4 fs h3.1]
          simp only [py_bind_ok, hs, this]

/-- If no file is opened as two different ones, there are files as they are when they are opened. -/
theorem exists_snapshot {w : World} {t t' : Nat} {os : List (Str × Nat)} (hm : Moments t t' os)
    (h0 : t ≤ t') (hn : Steady w os) : ∃ fs, Snapshot w t t' fs ∧ SeenIn w fs os := by
  refine ⟨fun g => match os.find? (fun p => p.1 = g) with
    | some p => w p.2 g
    | none => w t g, fun g => ?_, fun p hp => ?_⟩
  · cases hf : os.find? (fun p => p.1 = g) with
    | none => exact ⟨t, Nat.le_refl _, h0, by simp only [hf]⟩
    | some p =>
      have := hm.2 p (List.mem_of_find?_eq_some hf)
      exact ⟨p.2, this.1, by omega, by simp only [hf]⟩
  · cases hf : os.find? (fun q => q.1 = p.1) with
    | none => exact absurd (List.find?_eq_none.1 hf p hp) (by simp)
    | some q =>
      have hq : q.1 = p.1 := by simpa using List.find?_some hf
      simp only [hf]
      rw [← hn q (List.mem_of_find?_eq_some hf) p hp hq, hq]

/-- No file is opened as two different ones if none is opened twice. -/
theorem steady_of_nodup {w : World} {os : List (Str × Nat)} (h : (os.map (·.1)).Nodup) : Steady w os := by
  intro p hp q hq e
  rw [List.inj_on_of_nodup_map h hp hq e]

/-! ### Files that do not change -/

section

variable {fs : FileSystem} {cls : CardClass} {width : Int} {fields : List Int}

theorem readLoopT_still {read : Nat → Str → Nat × Py (List PunchCard)} {read' : Str → Py (List PunchCard)}
    (hread : ∀ t name, (read t name).2 = read' name) (file : Str) (i t : Nat) (ls : List Str) :
    (Deck.readLoopT (fun _ => fs) cls width fields read file i t ls).2 =
      Deck.readLoop fs cls width fields true read' file i ls := by
  induction ls generalizing i t with
  | nil => rfl
  | cons l ls ih =>
    rw [Deck.readLoopT, Deck.readLoop]
    split
    · exact ih _ _
    · split
      · cases firstWord (l.drop 1) with
        | error e => rfl
        | ok inc =>
          simp only [py_bind_ok]
          split
          · rfl
          · have := hread (t + 1) inc
            rcases hr : read (t + 1) inc with ⟨t1, _ | ic⟩
            · rw [hr] at this; simp only [← this, if_true]; rfl
            · rw [hr] at this
              have h2 := ih (i + 1) t1
              simp only [← this, if_true, py_bind_ok, ← h2]
              rcases Deck.readLoopT (fun _ => fs) cls width fields read file (i + 1) t1 ls with ⟨t2, _ | rc⟩ <;>
                rfl
      · cases cls l width fields (some file) (i + 1) with
        | error e => rfl
        | ok c =>
          have h2 := ih (i + 1) t
          simp only [py_bind_ok, ← h2]
          rcases Deck.readLoopT (fun _ => fs) cls width fields read file (i + 1) t ls with ⟨t2, _ | rc⟩ <;> rfl

theorem readSourceT_still (fuel t : Nat) (file : Str) :
    (Deck.readSourceT (fun _ => fs) cls width fields fuel t file).2 =
      Deck.readSource fs cls width fields fuel true file := by
  induction fuel generalizing t file with
  | zero => rfl
  | succ fuel ih =>
    rw [Deck.readSourceT, Deck.readSource]
    cases hf : fs file with
    | none => simp
    | some text =>
      simp only [Option.isNone_some, Bool.false_eq_true, if_false]
      exact readLoopT_still (fun t name => ih t name) _ _ _ _

end

theorem deckCardsT_still (fs : FileSystem) (fuel t : Nat) (f : Str) :
    (deckCardsT (fun _ => fs) fuel t f).2 = deckCards fs fuel f := by
  cases f with
  | nil => rfl
  | cons c f =>
    rw [deckCardsT, deckCards_cons, ← readSourceT_still fuel t]
    rcases Deck.readSourceT (fun _ => fs) argusClass DEFAULT_WIDTH DEFAULT_FIELDS fuel t (c :: f) with
      ⟨t1, _ | cs⟩ <;> rfl

theorem filesT_still {σ : Type} (fs : FileSystem) (fuel : Nat) (step : σ → Str → List CodeCard → Py σ)
    (files : List Str) (t : Nat) (st : σ) :
    (filesT (fun _ => fs) fuel step t files st).2 = filesFs fs fuel step files st := by
  induction files generalizing t st with
  | nil => rfl
  | cons f files ih =>
    unfold filesFs at ih ⊢
    rw [filesT, List.foldlM_cons, ← deckCardsT_still fs fuel t]
    rcases deckCardsT (fun _ => fs) fuel t f with ⟨t1, _ | cards⟩
    · rfl
    · simp only [py_bind_ok]
      cases step st f cards with
      | error e => rfl
      | ok st1 => exact ih _ _

end H800
