import Verif.Spec.Inline
import Verif.Lemmas.SameDecks
import Verif.Props.Idle

/-!
Lemmas about programs whose lines are divided among files in another way.
-/

namespace H800

open Spec

variable {kp : Keep}

/-- Without the name of the file and the line number, a card depends on the text only. -/
theorem srcCard_text (hn : kp.names = false) (hl : kp.lines = false) {s s' : Src} (h : s.text = s'.text) :
    anonCard kp (srcCard s) = anonCard kp (srcCard s') ∧
      hasCode (srcCard s) = hasCode (srcCard s') := by
  obtain ⟨f, n, t⟩ := s
  obtain ⟨f', n', t'⟩ := s'
  cases h
  unfold srcCard
  split <;> simp [anonCard, anonName, anonNum, hn, hl, hasCode]

theorem interspersed_cards (hn : kp.names = false) (hl : kp.lines = false) {ls ls' : List Str} (h : Interspersed ls ls') :
    ∀ out out' : List Src, out.map (·.text) = ls → out'.map (·.text) = ls' →
      (∀ s ∈ out, s.text.head? ≠ some '#') → (∀ s ∈ out', s.text.head? ≠ some '#') →
      ((out.map srcCard).filter hasCode).map (anonCard kp) =
        ((out'.map srcCard).filter hasCode).map (anonCard kp) := by
  have idle : ∀ s : Src, NoCode s.text → s.text.head? ≠ some '#' → hasCode (srcCard s) = false := by
    intro s hs hh
    exact idle_line s.file s.text s.num (hs.resolve_left hh)
  have same : ∀ {s s' : Src} {a b : List Src},
      anonCard kp (srcCard s) = anonCard kp (srcCard s') →
      hasCode (srcCard s) = hasCode (srcCard s') →
      ((a.map srcCard).filter hasCode).map (anonCard kp) =
        ((b.map srcCard).filter hasCode).map (anonCard kp) →
      (((s :: a).map srcCard).filter hasCode).map (anonCard kp) =
        (((s' :: b).map srcCard).filter hasCode).map (anonCard kp) := by
    intro s s' a b h1 h2 h3
    rw [List.map_cons, List.map_cons, List.filter_cons, List.filter_cons, h2]
    split
    · rw [List.map_cons, List.map_cons, h1, h3]
    · exact h3
  induction h with
  | nil =>
    intro out out' h1 h2 _ _
    rw [List.map_eq_nil_iff.1 h1, List.map_eq_nil_iff.1 h2]
  | put l hc _ ih =>
    intro out out' h1 h2 g1 g2
    cases out' with
    | nil => cases h2
    | cons s out' =>
      cases h2
      rw [List.map_cons, List.filter_cons_of_neg (by
        rw [idle s hc (g2 s List.mem_cons_self)]; simp)]
      exact ih out out' h1 rfl g1 fun x hx => g2 x (List.mem_cons_of_mem _ hx)
  | take l hc _ ih =>
    intro out out' h1 h2 g1 g2
    cases out with
    | nil => cases h1
    | cons s out =>
      cases h1
      rw [List.map_cons, List.filter_cons_of_neg (by
        rw [idle s hc (g1 s List.mem_cons_self)]; simp)]
      exact ih out out' rfl h2 (fun x hx => g1 x (List.mem_cons_of_mem _ hx)) g2
  | line l _ ih =>
    intro out out' h1 h2 g1 g2
    cases out with
    | nil => cases h1
    | cons s out =>
      cases out' with
      | nil => cases h2
      | cons s' out' =>
        rw [List.map_cons, List.cons.injEq] at h1 h2
        obtain ⟨a, b⟩ := srcCard_text hn hl (h1.1.trans h2.1.symm)
        exact same a b (ih out out' h1.2 h2.2 (fun x hx => g1 x (List.mem_cons_of_mem _ hx))
          fun x hx => g2 x (List.mem_cons_of_mem _ hx))
  | ended l _ _ ih =>
    intro out out' h1 h2 g1 g2
    cases out with
    | nil => cases h1
    | cons s out =>
      cases out' with
      | nil => cases h2
      | cons s' out' =>
        rw [List.map_cons, List.cons.injEq] at h1 h2
        obtain ⟨f, n, t⟩ := s'
        obtain ⟨h2, h2'⟩ := h2
        cases h2
        obtain ⟨a, b⟩ := srcCard_text hn hl (s' := ⟨f, n, l⟩) h1.1
        refine same ?_ ?_ (ih out out' h1.2 h2' (fun x hx => g1 x (List.mem_cons_of_mem _ hx))
          fun x hx => g2 x (List.mem_cons_of_mem _ hx))
        · exact a.trans (congrArg _ (srcCard_newline f l n).symm)
        · exact b.trans (congrArg _ (srcCard_newline f l n).symm)
  | unended l _ _ ih =>
    intro out out' h1 h2 g1 g2
    cases out with
    | nil => cases h1
    | cons s out =>
      cases out' with
      | nil => cases h2
      | cons s' out' =>
        rw [List.map_cons, List.cons.injEq] at h1 h2
        obtain ⟨f, n, t⟩ := s
        obtain ⟨h1, h1'⟩ := h1
        cases h1
        obtain ⟨a, b⟩ := srcCard_text hn hl (s := ⟨f, n, l⟩) (s' := s') h2.1.symm
        refine same ?_ ?_ (ih out out' h1' h2.2 (fun x hx => g1 x (List.mem_cons_of_mem _ hx))
          fun x hx => g2 x (List.mem_cons_of_mem _ hx))
        · exact (congrArg _ (srcCard_newline f l n)).trans a
        · exact (congrArg _ (srcCard_newline f l n)).trans b

/-- What `--verbose` tells about reading is left out with the names of the files. -/
theorem notes_none (hk : kp.names = false) (hl : kp.lines = false) {v : Bool} {α : Type} {o : List (VMsg α)} (h : OnlyNotes v o) :
    (∀ f : α → Option α, o.filterMap (anonMsg kp f) = []) ∧ o.filter (notComment kp) = [] := by
  refine ⟨fun f => List.filterMap_eq_nil_iff.2 fun m hm => ?_, List.filter_eq_nil_iff.2 fun m hm => ?_⟩
  · obtain ⟨-, ⟨g, rfl⟩ | ⟨g, n, rfl⟩⟩ := h m hm <;> simp [anonMsg, hk, hl]
  · obtain ⟨-, ⟨g, rfl⟩ | ⟨g, n, rfl⟩⟩ := h m hm <;> simp [notComment, hk, hl]

theorem sameDeck_lines (hk : kp.names = false) (hl : kp.lines = false) {fs fs' : FileSystem} {g g' : Str}
    {out out' : List Src} (h : Expands fs g out) (h' : Expands fs' g' out') (hg' : g = [] ↔ g' = [])
    (hi : Interspersed (out.map (·.text)) (out'.map (·.text))) :
    ∃ N, ∀ fuel ≥ N, ∀ fuel' ≥ N, ∀ v, SameDeck kp v fs fs' fuel fuel' g g' := by
  by_cases hg : g = []
  · cases hg'.1 hg
    subst hg
    refine ⟨0, fun fuel _ fuel' _ v α f => ⟨[], [], rfl, rfl, Or.inl ⟨_, rfl, rfl⟩⟩⟩
  · obtain ⟨n, hn⟩ := deckCards_complete hg h
    obtain ⟨n', hn'⟩ := deckCards_complete (fun e => hg (hg'.2 e)) h'
    refine ⟨max n n', fun fuel hf fuel' hf' v α f => ?_⟩
    have e1 := deckCardsV_snd (α := α) v fs fuel g
    have e2 := deckCardsV_snd (α := α) v fs' fuel' g'
    rw [hn fuel (by omega)] at e1
    rw [hn' fuel' (by omega)] at e2
    have o1 := notes_none hk hl (deckCardsV_notes (α := α) v fs fuel g)
    have o2 := notes_none hk hl (deckCardsV_notes (α := α) v fs' fuel' g')
    refine ⟨(deckCardsV (α := α) v fs fuel g).1, (deckCardsV (α := α) v fs' fuel' g').1,
      (o1.1 f).trans (o2.1 f).symm, o1.2.trans o2.2.symm, Or.inr ⟨out, out', ?_, ?_, ?_⟩⟩
    · rw [← e1]
    · rw [← e2]
    · have := interspersed_cards hk hl hi out out' rfl rfl (expands_ne h) (expands_ne h')
      have hc : counts kp = hasCode := by funext c; simp [counts, hl]
      rw [hc]
      exact this

theorem sameFiles_lines (hk : kp.names = false) (hl : kp.lines = false) {fs fs' : FileSystem} :
    ∀ {files files' : List Str} {srcs srcs' : List (Str × List Src)},
    Read fs files srcs → Read fs' files' srcs' →
    List.Forall₂ (fun p q => (p.1 = [] ↔ q.1 = []) ∧ splitFirst p.1 '.' = splitFirst q.1 '.' ∧
      anonGiven kp p.1 = anonGiven kp q.1 ∧ Interspersed (p.2.map (·.text)) (q.2.map (·.text))) srcs srcs' →
    ∃ N, ∀ fuel ≥ N, ∀ fuel' ≥ N, ∀ v, List.Forall₂ (SameFile kp v fs fs' fuel fuel') files files' := by
  intro files files' srcs srcs' h h' hs
  induction hs generalizing files files' with
  | nil =>
    obtain ⟨rfl, -⟩ := h
    obtain ⟨rfl, -⟩ := h'
    exact ⟨0, fun _ _ _ _ _ => .nil⟩
  | @cons p q ps qs hpq _ ih =>
    obtain ⟨rfl, h⟩ := h
    obtain ⟨rfl, h'⟩ := h'
    obtain ⟨N, hN⟩ := ih (files := ps.map (·.1)) (files' := qs.map (·.1))
      ⟨rfl, fun x hx => h x (List.mem_cons_of_mem _ hx)⟩ ⟨rfl, fun x hx => h' x (List.mem_cons_of_mem _ hx)⟩
    obtain ⟨M, hM⟩ := sameDeck_lines hk hl (h p List.mem_cons_self) (h' q List.mem_cons_self) hpq.1
      hpq.2.2.2
    refine ⟨max N M, fun fuel hf fuel' hf' v => .cons ⟨?_, hpq.2.1, hpq.2.2.1⟩ ?_⟩
    · exact hM fuel (by omega) fuel' (by omega) v
    · exact hN fuel (by omega) fuel' (by omega) v

/-! ### The instruction tools look at all lines one after the other -/

/-- Every file can be read with this many nested includes. -/
theorem read_fuel {fs : FileSystem} : ∀ {files : List Str} {srcs : List (Str × List Src)},
    Read fs files srcs → [] ∉ files →
    ∃ N, ∀ fuel ≥ N, ∀ p ∈ srcs, deckCards fs fuel p.1 = .ok (p.2.map srcCard) := by
  intro files srcs ⟨e, h⟩ hne
  subst e
  induction srcs with
  | nil => exact ⟨0, fun _ _ _ h => nomatch h⟩
  | cons p srcs ih =>
    obtain ⟨N, hN⟩ := ih (fun x hx => h x (List.mem_cons_of_mem _ hx)) fun hx =>
      hne (List.mem_cons_of_mem _ hx)
    obtain ⟨M, hM⟩ := deckCards_complete (fun e => hne (by rw [List.map_cons, e]; exact List.mem_cons_self))
      (h p List.mem_cons_self)
    refine ⟨max N M, fun fuel hf x hx => ?_⟩
    rcases List.mem_cons.1 hx with rfl | hx
    · exact hM fuel (by omega)
    · exact hN fuel (by omega) x hx

/-- All cards of the files. -/
def allCards (srcs : List (Str × List Src)) : List CodeCard := srcs.flatMap fun p => p.2.map srcCard

theorem checkFilesV_all (hk : kp.names = false) (hl : kp.lines = false) {fs : FileSystem} {fuel : Nat}
    (v : Bool) (opts : CheckOpts) : ∀ {srcs : List (Str × List Src)},
    (∀ p ∈ srcs, deckCards fs fuel p.1 = .ok (p.2.map srcCard)) → ∀ st st' : CheckStateV,
      anonCheckState kp st = anonCheckState kp st' →
      anonCheckState kp (checkFilesV v fs fuel opts (srcs.map (·.1)) st).1 =
          anonCheckState kp ((allCards srcs).foldl (checkStepV v opts) st') ∧
        (checkFilesV v fs fuel opts (srcs.map (·.1)) st).2 = .ok ()
  | [], _, _, _, e => ⟨e, rfl⟩
  | p :: srcs, h, st, st', e => by
    have e1 := deckCardsV_snd (α := CheckMsg) v fs fuel p.1
    rw [h p List.mem_cons_self] at e1
    have o1 := (notes_none hk hl (deckCardsV_notes (α := CheckMsg) v fs fuel p.1)).1 (anonCheck kp)
    have e2 : deckCardsV (α := CheckMsg) v fs fuel p.1 =
        ((deckCardsV (α := CheckMsg) v fs fuel p.1).1, .ok (p.2.map srcCard)) := by rw [← e1]
    rw [List.map_cons, checkFilesV, e2]
    simp only
    rw [allCards, List.flatMap_cons, List.foldl_append]
    refine checkFilesV_all hk hl v opts (fun x hx => h x (List.mem_cons_of_mem _ hx)) _ _ ?_
    refine fold_same (anonCheckState kp) (checkStepV v opts) (checkStepV_same v opts)
      (checkStepV_idle v opts) rfl ?_
    rw [← e]
    simp only [anonCheckState, List.filterMap_append, o1, List.append_nil]

theorem listFilesV_all (hk : kp.names = false) (hl : kp.lines = false) {fs : FileSystem} {fuel : Nat}
    (v details : Bool) (opcode : Str) : ∀ {srcs : List (Str × List Src)},
    (∀ p ∈ srcs, deckCards fs fuel p.1 = .ok (p.2.map srcCard)) →
      (listFilesV v fs fuel details opcode (srcs.map (·.1))).1.filter (notComment kp) =
          (allCards srcs).flatMap (listStepV v details opcode) ∧
        (listFilesV v fs fuel details opcode (srcs.map (·.1))).2 = .ok ()
  | [], _ => ⟨rfl, rfl⟩
  | p :: srcs, h => by
    have e1 := deckCardsV_snd (α := Str) v fs fuel p.1
    rw [h p List.mem_cons_self] at e1
    have o1 := (notes_none hk hl (deckCardsV_notes (α := Str) v fs fuel p.1)).2
    have e2 : deckCardsV (α := Str) v fs fuel p.1 =
        ((deckCardsV (α := Str) v fs fuel p.1).1, .ok (p.2.map srcCard)) := by rw [← e1]
    obtain ⟨i1, i2⟩ := listFilesV_all hk hl v details opcode (srcs := srcs)
      fun x hx => h x (List.mem_cons_of_mem _ hx)
    rw [List.map_cons, listFilesV, e2]
    refine ⟨?_, i2⟩
    simp only [List.filter_append, o1, List.nil_append, i1]
    rw [show allCards (p :: srcs) = p.2.map srcCard ++ allCards srcs from rfl, List.flatMap_append]
    congr 1
    rw [List.filter_eq_self]
    intro m hm
    obtain ⟨c, -, hc⟩ := List.mem_flatMap.1 hm
    exact listStepV_notComment v details opcode c m hc

theorem allCards_same (hk : kp.names = false) (hl : kp.lines = false) {fs fs' : FileSystem}
    {files files' : List Str} {srcs srcs' : List (Str × List Src)} (h : Read fs files srcs)
    (h' : Read fs' files' srcs') (hi : Interspersed (allLines srcs) (allLines srcs')) :
    ((allCards srcs).filter (counts kp)).map (anonCard kp) =
      ((allCards srcs').filter (counts kp)).map (anonCard kp) := by
  have hc : counts kp = hasCode := by funext c; simp [counts, hl]
  have out : ∀ (x : List (Str × List Src)), allCards x = (x.flatMap (·.2)).map srcCard := by
    intro x
    rw [allCards, List.map_flatMap]
  have txt : ∀ (x : List (Str × List Src)), (x.flatMap (·.2)).map (·.text) = allLines x := by
    intro x
    rw [allLines, List.map_flatMap]
  have ne : ∀ {fs : FileSystem} {files : List Str} {x : List (Str × List Src)}, Read fs files x →
      ∀ s ∈ x.flatMap (·.2), s.text.head? ≠ some '#' := by
    intro fs files x hx s hs
    obtain ⟨p, hp, hs⟩ := List.mem_flatMap.1 hs
    exact expands_ne (hx.2 p hp) s hs
  rw [hc, out, out]
  exact interspersed_cards hk hl hi _ _ (txt _) (txt _) (ne h) (ne h')

/-! ### Writing out the included files -/

theorem interspersed_self (ls : List Str) : Interspersed ls ls := by
  induction ls with
  | nil => exact .nil
  | cons l ls ih => exact .line l ih

theorem expand_plain {fs : Str → Option Str} {file : Str} : ∀ (ls : List Str) (i : Nat),
    (∀ l ∈ ls, l.head? ≠ some '#' ∧ l.head? ≠ some '$') →
    ∃ out, Expand fs file i ls out ∧ out.map (·.text) = ls
  | [], i, _ => ⟨[], .nil _ _, rfl⟩
  | l :: ls, i, h => by
    obtain ⟨out, h1, h2⟩ := expand_plain (fs := fs) (file := file) ls (i + 1) fun x hx =>
      h x (List.mem_cons_of_mem _ hx)
    have := h l List.mem_cons_self
    exact ⟨⟨file, i, l⟩ :: out, .plain this.1 this.2 h1, by rw [List.map_cons, h2]⟩

theorem filter_noNewline {t : Str} (h : '\n' ∉ t) : t.filter (· ≠ '\n') = t :=
  List.filter_eq_self.2 fun c hc => by
    have : c ≠ '\n' := fun e => h (e ▸ hc)
    simpa using this

theorem expands_lines {fs : Str → Option Str} {g : Str} {out : List Src} (h : Expands fs g out) :
    ∀ s ∈ out, ∃ t, '\n' ∉ t ∧ (s.text = t ∨ s.text = t ++ ['\n']) := by
  intro s hs
  obtain ⟨text, -, -, hl, -⟩ := expands_src h s hs
  exact readlines_line (List.mem_of_getElem? hl)

theorem inlined_lines (out : List Src) :
    readlines (inlined out) = out.map fun s => s.text.filter (· ≠ '\n') ++ ['\n'] := by
  unfold inlined
  rw [List.flatMap_def]
  refine readlines_lines fun l hl => ?_
  obtain ⟨s, -, rfl⟩ := List.mem_map.1 hl
  exact ⟨_, rfl, by simp⟩

theorem inlined_interspersed : ∀ {out : List Src},
    (∀ s ∈ out, ∃ t, '\n' ∉ t ∧ (s.text = t ∨ s.text = t ++ ['\n'])) →
    Interspersed (out.map (·.text)) (out.map fun s => s.text.filter (· ≠ '\n') ++ ['\n'])
  | [], _ => .nil
  | s :: out, h => by
    have ih := inlined_interspersed (out := out) fun x hx => h x (List.mem_cons_of_mem _ hx)
    obtain ⟨t, ht, e⟩ := h s List.mem_cons_self
    rw [List.map_cons, List.map_cons]
    rcases e with e | e
    · rw [e, filter_noNewline ht]
      exact .ended t ht ih
    · have : (t ++ ['\n']).filter (· ≠ '\n') = t := by
        rw [List.filter_append, filter_noNewline ht]; simp
      rw [e, this]
      exact .line _ ih

theorem inlined_expands {fs fs' : Str → Option Str} {g : Str} {out : List Src}
    (h : Expands fs g out) (h' : fs' g = some (inlined out)) :
    ∃ out', Expands fs' g out' ∧ Interspersed (out.map (·.text)) (out'.map (·.text)) := by
  have hl := expands_lines h
  obtain ⟨out', h1, h2⟩ := expand_plain (fs := fs') (file := g) (readlines (inlined out)) 1 (by
    rw [inlined_lines out]
    intro l hx
    obtain ⟨s, hs, rfl⟩ := List.mem_map.1 hx
    obtain ⟨-, -, -, -, g1, g2⟩ := expands_src h s hs
    obtain ⟨t, ht, e⟩ := hl s hs
    have : s.text.filter (· ≠ '\n') = t := by
      rcases e with e | e
      · rw [e, filter_noNewline ht]
      · rw [e, List.filter_append, filter_noNewline ht]; simp
    rw [this]
    cases t with
    | nil => exact ⟨by decide, by decide⟩
    | cons c t =>
      rcases e with e | e <;> rw [e] at g1 g2 <;> exact ⟨g1, g2⟩)
  refine ⟨out', ⟨_, h', h1⟩, ?_⟩
  rw [h2, inlined_lines out]
  exact inlined_interspersed hl

theorem inlined_read {fs fs' : Str → Option Str} : ∀ {srcs : List (Str × List Src)},
    (∀ p ∈ srcs, Expands fs p.1 p.2) → (∀ p ∈ srcs, fs' p.1 = some (inlined p.2)) →
    ∃ srcs', Read fs' (srcs.map (·.1)) srcs' ∧ SameLines srcs srcs'
  | [], _, _ => ⟨[], ⟨rfl, fun _ h => nomatch h⟩, .nil⟩
  | p :: srcs, h, h' => by
    obtain ⟨srcs', ⟨h1, h2⟩, h3⟩ := inlined_read (srcs := srcs)
      (fun x hx => h x (List.mem_cons_of_mem _ hx)) fun x hx => h' x (List.mem_cons_of_mem _ hx)
    obtain ⟨out', g1, g2⟩ := inlined_expands (h p List.mem_cons_self) (h' p List.mem_cons_self)
    refine ⟨(p.1, out') :: srcs', ⟨by rw [List.map_cons, List.map_cons, h1], fun x hx => ?_⟩,
      .cons ⟨rfl, g2⟩ h3⟩
    rcases List.mem_cons.1 hx with rfl | hx
    · exact g1
    · exact h2 x hx

end H800
