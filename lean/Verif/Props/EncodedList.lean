import Verif.Spec.EncodedList
import Verif.Props.Encoded

/-!
C243: listing writes its listings whole, whatever characters the sources hold.
-/

namespace H800

open Spec

theorem encodesAll_can {enc : Char → Bool} {fs : FileSystem} {files : List Str}
    (h : EncodesAll enc fs files) : CanEncode enc fs files :=
  ⟨h.ascii, h.names, fun f _ t ht => h.texts f t ht⟩

theorem printed_deckLines (cards : List CodeCard) :
    printed (cards.map deckLineText) = cards.flatMap deckLine := by
  unfold printed
  rw [List.flatMap_map]
  congr 1

theorem encLine_deckLine {enc : Char → Bool} (ha : ∀ c : Char, c.toNat < 128 → enc c = true)
    {c : CodeCard} (hc : EncCard enc c) : EncLine enc (deckLineText c) :=
  encLine_append (encLine_append (encLine_padRight ha _ hc.file) (encLine_cons (ha _ (by decide))
    (encLine_padRight ha _ (encLine_pyStr ha _)))) (encLine_cons (ha _ (by decide))
      (encLine_sub hc.text fun _ h => (List.mem_filter.1 h).1))

theorem joinWith_char {d c : Char} (l : List Str) (h : c ∈ joinWith d l) : c = d ∨ ∃ s ∈ l, c ∈ s := by
  induction l with
  | nil => cases h
  | cons s l ih =>
    cases l with
    | nil => exact Or.inr ⟨s, List.mem_cons_self, h⟩
    | cons t l =>
      rw [joinWith] at h
      rcases List.mem_append.1 h with h | h
      · exact Or.inr ⟨s, List.mem_cons_self, h⟩
      · rcases List.mem_cons.1 h with h | h
        · exact Or.inl h
        · rcases ih h with h | ⟨u, hu, h⟩
          · exact Or.inl h
          · exact Or.inr ⟨u, List.mem_cons_of_mem _ hu, h⟩

theorem pySplit_char {d c : Char} (s : Str) : ∀ w ∈ pySplit d s, c ∈ w → c ∈ s := by
  induction s with
  | nil =>
    intro w hw h
    rw [pySplit] at hw
    rw [List.mem_singleton.1 hw] at h
    exact h
  | cons x s ih =>
    intro w hw h
    rw [pySplit] at hw
    split at hw
    · rcases List.mem_cons.1 hw with rfl | hw
      · cases h
      · exact List.mem_cons_of_mem _ (ih w hw h)
    · split at hw
      · rw [List.mem_singleton.1 hw] at h
        rw [List.mem_singleton.1 h]
        exact List.mem_cons_self
      · rename_i y ys e
        rcases List.mem_cons.1 hw with rfl | hw
        · rcases List.mem_cons.1 h with rfl | h
          · exact List.mem_cons_self
          · exact List.mem_cons_of_mem _ (ih y (by rw [e]; exact List.mem_cons_self) h)
        · exact List.mem_cons_of_mem _ (ih w (by rw [e]; exact List.mem_cons_of_mem _ hw) h)

theorem enc_listfile {enc : Char → Bool} (ha : ∀ c : Char, c.toNat < 128 → enc c = true) {f : Str}
    (hf : EncLine enc f) : EncLine enc (listfileOf f) := by
  refine encLine_append ?_ (encLine_ascii ha (by decide))
  intro c hc
  rcases joinWith_char _ hc with rfl | ⟨s, hs, hc⟩
  · exact ha _ (by decide)
  · exact hf c (pySplit_char f s (List.dropLast_subset _ hs) hc)

theorem enc_wrote {enc : Char → Bool} (ha : ∀ c : Char, c.toNat < 128 → enc c = true) {f : Str}
    (hf : EncLine enc f) (v : Bool) :
    ∀ l ∈ (if v then listingMsgText (.wrote f) else []), ∀ c ∈ l, enc c = true := by
  intro l hl
  split at hl
  · rw [show listingMsgText (.wrote f) = [py "Wrote listing file to " ++ f] from rfl,
      List.mem_singleton] at hl
    subst hl
    exact encLine_append (encLine_ascii ha (by decide)) hf
  · cases hl

/-- A listing whose characters can be encoded changes nothing of what can be encoded. -/
theorem encodesAll_write {enc : Char → Bool} {fs : FileSystem} {files : List Str}
    (h : EncodesAll enc fs files) {f t : Str} (ht : EncLine enc t) :
    EncodesAll enc (writeFile fs f t) files := by
  refine ⟨h.ascii, h.names, ?_⟩
  intro g text e
  unfold writeFile at e
  split at e
  · cases e; exact ht
  · exact h.texts g text e

theorem enc_printed {enc : Char → Bool} (ha : ∀ c : Char, c.toNat < 128 → enc c = true) {ls : List Str}
    (h : ∀ l ∈ ls, EncLine enc l) : EncLine enc (printed ls) := by
  intro c hc
  obtain ⟨l, hl, hc⟩ := List.mem_flatMap.1 hc
  rcases List.mem_append.1 hc with hc | hc
  · exact h l hl c hc
  · rw [List.mem_singleton.1 hc]; exact ha _ (by decide)

theorem listingFilesIn_all {eo ef : Char → Bool} (v : Bool) (fuel : Nat) (files fl : List Str)
    (hfl : ∀ f ∈ fl, f ∈ files) (fs : FileSystem) (ho : EncodesAll eo fs files)
    (hf : EncodesAll ef fs files) :
    listingFilesIn eo ef v fuel fs fl =
      ((listingFilesV v fuel fs fl).1,
        printed ((listingFilesV v fuel fs fl).2.1.flatMap listingMsgText),
        (listingFilesV v fuel fs fl).2.2) := by
  induction fl generalizing fs with
  | nil => rfl
  | cons f fl ih =>
    have hr : Reached fs files f := .given (hfl f List.mem_cons_self)
    have e1 := deckCardsV_snd (α := Empty) v fs fuel f
    have e2 := enc_deckNotes (encodesAll_can ho) (text := listingMsgText)
      (tellsNotes_text fun e : Empty => nomatch e) v fuel hr
    rw [listingFilesIn, listingFilesV]
    generalize deckCardsV (α := Empty) v fs fuel f = p at e1 e2
    obtain ⟨o, p⟩ := p
    cases p with
    | error e =>
      simp only
      rw [printIn_msgs e2]
    | ok cards =>
      have ho' := enc_deckCards (encodesAll_can ho) hr e1.symm
      have hf' := enc_deckCards (encodesAll_can hf) hr e1.symm
      have h1 : ∀ l ∈ cards.map deckLineText, EncLine ef l := by
        intro l hl
        obtain ⟨c, hc, rfl⟩ := List.mem_map.1 hl
        exact encLine_deckLine hf.ascii (hf' c hc)
      have h2 : ∀ l ∈ cards.map deckLineText, EncLine eo l := by
        intro l hl
        obtain ⟨c, hc, rfl⟩ := List.mem_map.1 hl
        exact encLine_deckLine ho.ascii (ho' c hc)
      have k1 := encodesAll_write hf (f := listfileOf f) (enc_printed hf.ascii h1)
      have k2 := encodesAll_write ho (f := listfileOf f) (enc_printed ho.ascii h2)
      simp only
      rw [printIn_msgs e2]
      simp only
      rw [printIn_all _ h1]
      simp only
      rw [printIn_all _ (enc_wrote ho.ascii (enc_listfile ho.ascii (ho.names f (hfl f List.mem_cons_self))) v),
        ih (fun x hx => hfl x (List.mem_cons_of_mem _ hx)) _ k2 k1, printed_deckLines]
      simp only [List.flatMap_append, printed_append]
      cases v <;> rfl

/-! ### C243 -/

/-- C243 in full: whatever characters the sources hold, encodings that have all characters of ASCII make
no difference to the listings that are written. -/
def C243_statement : Prop :=
  ∀ (encOut encFile : Char → Bool) (v : Bool) (fs : FileSystem) (fuel : Nat) (args : List Str),
    (∀ c : Char, c.toNat < 128 → encOut c = true ∧ encFile c = true) →
    ∀ f, (listingIn encOut encFile v fs fuel args).1 f = (listingV v fs fuel args).1 f

/-- C243: encodings that also have all characters of the names given and of all files make no difference
to the listings, to what is printed and to how the script ends. -/
theorem C243_whole_partial (encOut encFile : Char → Bool) (v : Bool) (fs : FileSystem) (fuel : Nat)
    (args : List Str) (ho : EncodesAll encOut fs args) (hf : EncodesAll encFile fs args) :
    listingIn encOut encFile v fs fuel args =
      ((listingV v fs fuel args).1, printed ((listingV v fs fuel args).2.1.flatMap listingMsgText),
        (listingV v fs fuel args).2.2) := by
  unfold listingIn listingV
  split
  · rfl
  · exact listingFilesIn_all v fuel args args (fun _ h => h) fs ho hf

theorem printIn_prefix (enc : Char → Bool) (ls : List Str) (r : Py Unit) :
    ∃ n, (printIn enc ls r).1 = printed (ls.take n) ∧
      ((printIn enc ls r).2 = r ∧ n = ls.length ∨ (printIn enc ls r).2 = .error .valueError) := by
  induction ls with
  | nil => exact ⟨0, rfl, Or.inl ⟨rfl, rfl⟩⟩
  | cons l ls ih =>
    rw [printIn]
    split
    · obtain ⟨n, h1, h2⟩ := ih
      generalize printIn enc ls r = p at h1 h2
      obtain ⟨o, q⟩ := p
      refine ⟨n + 1, ?_, ?_⟩
      · simp only at h1 ⊢
        rw [h1]
        simp [printed]
      · rcases h2 with ⟨h2, h3⟩ | h2
        · exact Or.inl ⟨h2, by simp [h3]⟩
        · exact Or.inr h2
    · exact ⟨0, rfl, Or.inr rfl⟩

/-- C243: with any encodings a file that is no listing of a file given is left as it was. -/
theorem C243_others (encOut encFile : Char → Bool) (v : Bool) (fs : FileSystem) (fuel : Nat)
    (args : List Str) (g : Str) (hg : ∀ f ∈ args, g ≠ listfileOf f) :
    (listingIn encOut encFile v fs fuel args).1 g = fs g := by
  have hw : ∀ (fs : FileSystem) (f t : Str), g ≠ listfileOf f → writeFile fs (listfileOf f) t g = fs g := by
    intro fs f t h
    unfold writeFile
    rw [if_neg h]
  have hl : ∀ (fl : List Str) (fs : FileSystem), (∀ f ∈ fl, g ≠ listfileOf f) →
      (listingFilesIn encOut encFile v fuel fs fl).1 g = fs g := by
    intro fl
    induction fl with
    | nil => intro fs _; rfl
    | cons f fl ih =>
      intro fs h
      have h1 := h f List.mem_cons_self
      have ih := fun fs' => ih fs' fun x hx => h x (List.mem_cons_of_mem _ hx)
      rw [listingFilesIn]
      split
      · rfl
      · split
        · rfl
        · split
          · exact hw _ _ _ h1
          · split
            · exact hw _ _ _ h1
            · rw [← hw fs f _ h1]
              exact ih _
  unfold listingIn
  split
  · rfl
  · exact hl args fs hg

/-- C243: with any encodings, a run on one file leaves its listing as it was, because reading or telling
about it failed, or with a beginning of the lines of its cards; if there is no error, with all of them. -/
theorem C243_cut (encOut encFile : Char → Bool) (v : Bool) (fs : FileSystem) (fuel : Nat) (f : Str) :
    (∃ e, (listingIn encOut encFile v fs fuel [f]).2.2 = .error e ∧
      (listingIn encOut encFile v fs fuel [f]).1 (listfileOf f) = fs (listfileOf f)) ∨
    ∃ cards n, deckCards fs fuel f = .ok cards ∧
      (listingIn encOut encFile v fs fuel [f]).1 (listfileOf f) =
        some ((cards.take n).flatMap deckLine) ∧
      ((listingIn encOut encFile v fs fuel [f]).2.2 = .ok () → n = cards.length) := by
  have e1 := deckCardsV_snd (α := Empty) v fs fuel f
  unfold listingIn
  rw [if_neg (by simp), listingFilesIn]
  generalize deckCardsV (α := Empty) v fs fuel f = p at e1
  obtain ⟨o, p⟩ := p
  cases p with
  | error e =>
    left
    simp only
    obtain ⟨n, -, h⟩ := printIn_prefix encOut (o.flatMap listingMsgText) (.error e)
    generalize printIn encOut (o.flatMap listingMsgText) (.error e) = q at h
    obtain ⟨o', q⟩ := q
    rcases h with ⟨h, -⟩ | h
    · exact ⟨e, h, trivial⟩
    · exact ⟨_, h, trivial⟩
  | ok cards =>
    simp only
    generalize printIn encOut (o.flatMap listingMsgText) (.ok ()) = q
    obtain ⟨o', q⟩ := q
    cases q with
    | error e => exact Or.inl ⟨e, rfl, rfl⟩
    | ok u =>
      right
      obtain ⟨n, h1, h2⟩ := printIn_prefix encFile (cards.map deckLineText) (.ok ())
      have hw : ∀ t, writeFile fs (listfileOf f) t (listfileOf f) = some t := by
        intro t; unfold writeFile; rw [if_pos rfl]
      generalize printIn encFile (cards.map deckLineText) (.ok ()) = q at h1 h2
      obtain ⟨t, q⟩ := q
      simp only at h1 h2
      rw [← List.map_take, printed_deckLines] at h1
      subst h1
      refine ⟨cards, n, e1.symm, ?_⟩
      cases q with
      | error e => exact ⟨hw _, fun h => by cases h⟩
      | ok u =>
        have hn : n = cards.length := by
          rcases h2 with ⟨-, h⟩ | h
          · simpa using h
          · cases h
        simp only
        generalize printIn encOut (if v then listingMsgText (.wrote (listfileOf f)) else []) (.ok ()) = q
        obtain ⟨w, q⟩ := q
        cases q with
        | error e => exact ⟨hw _, fun _ => hn⟩
        | ok u => exact ⟨hw _, fun _ => hn⟩

/-- A source that has the name of its own listing. -/
def accentLst : FileSystem := fun f =>
  if f = py "A.lst" then some (py "                   TX\n                   TX           ZéRO\n") else none

/-- C243 does not hold: a line of the listing cannot be written, and the listing ends before it. -/
theorem C243_refuted : ¬ C243_statement := by
  intro h
  have h := h (fun c => decide (c.toNat < 128)) (fun c => decide (c.toNat < 128)) false accentFs 10
    [py "A.arg"] (fun c hc => ⟨decide_eq_true hc, decide_eq_true hc⟩) (py "A.lst")
  revert h
  decide +kernel

/-- With the name of a listing given, the rest of the source is lost, and not in the listing either. -/
theorem C243_lost : ∃ t, (listingIn (fun c => decide (c.toNat < 128)) (fun c => decide (c.toNat < 128))
      false accentLst 10 [py "A.lst"]).1 (py "A.lst") = some t ∧ Char.ofNat 233 ∉ t ∧
    (∃ s, accentLst (py "A.lst") = some s ∧ Char.ofNat 233 ∈ s) := by
  refine ⟨_, rfl, ?_, _, rfl, ?_⟩ <;> decide +kernel

/-- Latin-1 has all characters of the files. -/
example : EncodesAll (fun c => decide (c.toNat < 256)) accentFs [py "A.arg"] ∧
    (listingIn (fun c => decide (c.toNat < 256)) (fun c => decide (c.toNat < 256)) true accentFs 10
      [py "A.arg"]).2 = (py "Reading A.arg...\nWrote listing file to A.lst\n", .ok ()) := by
  refine ⟨⟨fun c hc => decide_eq_true (by omega), by decide, ?_⟩, by decide +kernel⟩
  intro f text ht
  unfold accentFs at ht
  split at ht
  · cases ht
    decide
  · cases ht

example : (listingIn (fun c => decide (c.toNat < 256)) (fun c => decide (c.toNat < 128)) true accentFs 10
    [py "A.arg"]).2 = (py "Reading A.arg...\n", .error .valueError) := by
  decide +kernel

end H800
