import Verif.Spec.Punched
import Verif.Lemmas.Unread

/-!
Lemmas about labels and operations punched elsewhere in their fields.
-/

namespace H800

open Spec

theorem entry_holes (u : Str) (hu : '\n' ∉ u) (a b : Nat) (ha : 1 ≤ a) :
    PunchCard.entry (columns u a (b + 1)) = PunchCard.entry (holes u a b) :=
  entry_columns u hu a (b + 1) ha

theorem spaces_blank {s : Str} (h : Spaces s) : Blank s := fun c hc => by rw [h c hc]; decide

/-- Stripped, both are the same. -/
theorem strip_shifted {s s' : Str} (h : Shifted s s') : strip s = strip s' := by
  obtain ⟨o, a, b, a', b', ha, hb, ha', hb', rfl, rfl⟩ := h
  have key : ∀ {a b : Str}, Spaces a → Spaces b → strip (a ++ o ++ b) = strip o := by
    intro a b ha hb
    obtain ⟨ht, x, y, hx, hy, e⟩ := strip_stripped o
    refine stripped_iff.1 ⟨ht, a ++ x, y ++ b, blank_append.2 ⟨spaces_blank ha, hx⟩,
      blank_append.2 ⟨hy, spaces_blank hb⟩, ?_⟩
    conv => lhs; rw [e]
    simp only [List.append_assoc]
  rw [key ha hb, key ha' hb']

theorem entry_shifted {s s' : Str} (h : Shifted s s') : PunchCard.entry s = PunchCard.entry s' := by
  unfold PunchCard.entry
  rw [strip_shifted h]

/-- A text that is not white space has a character that is no space. -/
theorem filter_strip_nil (s : Str) : (strip s).filter (· ≠ ' ') = [] ↔ strip s = [] := by
  constructor
  · intro h
    have := (strip_stripped s).1.1
    cases hs : strip s with
    | nil => rfl
    | cons x r =>
      have hx : isSpace x = false := this x (by rw [hs]; rfl)
      have hne : x ≠ ' ' := fun h => by rw [h] at hx; cases hx
      rw [hs, List.filter_cons_of_pos (by simpa using hne)] at h
      cases h
  · intro h; rw [h]; rfl

theorem entry_squeezed {s s' : Str} (h : s.filter (· ≠ ' ') = s'.filter (· ≠ ' ')) :
    (PunchCard.entry s).map (anonLabel .noBlanks) = (PunchCard.entry s').map (anonLabel .noBlanks) := by
  have h1 : (strip s).filter (· ≠ ' ') = (strip s').filter (· ≠ ' ') := by
    rw [filter_strip, filter_strip, h]
  have hlab : ∀ t : Str, strip t ≠ [] → anonLabel .noBlanks (strip t) = (strip t).filter (· ≠ ' ') := by
    intro t ht
    unfold anonLabel
    rw [if_neg]
    intro hall
    apply ht
    rw [← filter_strip_nil, List.filter_eq_nil_iff]
    intro c hc
    have hall' : ∀ x ∈ strip t, x = ' ' := by simpa using hall
    simpa using hall' c hc
  unfold PunchCard.entry
  by_cases hs : strip s = []
  · have hs' : strip s' = [] := by rw [← filter_strip_nil, ← h1, filter_strip_nil, hs]
    rw [hs, hs']
  · have hs' : strip s' ≠ [] := fun e => hs (by rw [← filter_strip_nil, h1, filter_strip_nil, e])
    have g := hlab s hs
    have g' := hlab s' hs'
    revert hs hs' g g'
    rw [h1]
    generalize strip s = a
    generalize (strip s').filter (· ≠ ' ') = r
    generalize strip s' = a'
    intro hs hs' g g'
    cases a with
    | nil => exact absurd rfl hs
    | cons x xs =>
      cases a' with
      | nil => exact absurd rfl hs'
      | cons y ys => simp [g, g']

/-- The cards of two lines in which the same is punched. -/
theorem card_punched {u u' : Str} (hu : '\n' ∉ u) (hu' : '\n' ∉ u') (file : Str) (n : Nat)
    (h1 : columnAt u 1 = columnAt u' 1) (h8 : columnAt u 8 = columnAt u' 8)
    (h : ¬ PRL u → (holes u 9 19).filter (· ≠ ' ') = (holes u' 9 19).filter (· ≠ ' ') ∧
      Shifted (holes u 20 32) (holes u' 20 32)) :
    anonCard .noBlanks (srcCard ⟨file, n, u⟩) = anonCard .noBlanks (srcCard ⟨file, n, u'⟩) := by
  have e1 : PunchCard.entry (columns u 1 2) = PunchCard.entry (columns u' 1 2) :=
    entry_front hu hu' (by omega) fun i k1 k2 => by
      have : i = 1 := by omega
      rw [this, h1]
  have e8 : PunchCard.entry (columns u 8 9) = PunchCard.entry (columns u' 8 9) :=
    entry_front hu hu' (by omega) fun i k1 k2 => by
      have : i = 8 := by omega
      rw [this, h8]
  have hv : val (columns u 1 2) = val (columns u' 1 2) := by unfold val; rw [e1]
  have key : Card.isPRL (val (columns u 1 2)) = false →
      (PunchCard.entry (columns u 9 20)).map (anonLabel .noBlanks) =
        (PunchCard.entry (columns u' 9 20)).map (anonLabel .noBlanks) ∧
      PunchCard.entry (columns u 20 33) = PunchCard.entry (columns u' 20 33) := by
    intro hp
    have hp' : ¬ PRL u := fun hq => by rw [(isPRL_iff u).2 hq] at hp; cases hp
    obtain ⟨k1, k2⟩ := h hp'
    refine ⟨?_, ?_⟩
    · rw [entry_holes u hu 9 19 (by omega), entry_holes u' hu' 9 19 (by omega)]
      exact entry_squeezed k1
    · rw [entry_holes u hu 20 32 (by omega), entry_holes u' hu' 20 32 (by omega)]
      exact entry_shifted k2
  unfold srcCard anonCard
  simp only [hv] at key ⊢
  cases hp : Card.isPRL (val (columns u' 1 2)) with
  | true => simp [e1, e8, anonField, anonText]
  | false =>
    obtain ⟨k1, k2⟩ := key hp
    simp [e1, e8, k1, k2, anonField, anonText]

theorem deckV_punched {v : Bool} {fs fs' : FileSystem} (h : SamePunches fs fs') (fuel : Nat) (g : Str) :
    SameDeck .noBlanks v fs fs' fuel fuel g g := by
  refine deckV_rel (linesRel_of (fun l l' hl hl' hr => ?_) h) fuel g
  cases hr with
  | comment => exact .comment _ _
  | include_ _ _ _ w w' => exact .include_ _ _ _ w w'
  | blank _ _ b b' => exact .blank _ _ b b'
  | card _ _ c1 c2 h1 h8 hc =>
    obtain ⟨g1, g2, g3, g4⟩ := heads_card hl hl' c1 c2 h1
    refine .card _ _ g1 g2 g3 g4 fun file n => ?_
    obtain ⟨u, hu, e⟩ := hl
    obtain ⟨u', hu', e'⟩ := hl'
    have a : srcCard ⟨file, n, l⟩ = srcCard ⟨file, n, u⟩ := by
      rcases e with rfl | rfl
      · rfl
      · exact srcCard_newline file u n
    have a' : srcCard ⟨file, n, l'⟩ = srcCard ⟨file, n, u'⟩ := by
      rcases e' with rfl | rfl
      · rfl
      · exact srcCard_newline file u' n
    rw [a, a']
    have hp : PRL l ↔ PRL u := by
      rcases e with rfl | rfl
      · rfl
      · exact prl_newline u
    have hc1 : ∀ i, columnAt l i = columnAt u i := by
      rcases e with rfl | rfl
      · exact fun _ => rfl
      · exact columnAt_newline u
    have hc1' : ∀ i, columnAt l' i = columnAt u' i := by
      rcases e' with rfl | rfl
      · exact fun _ => rfl
      · exact columnAt_newline u'
    have hh : ∀ a b, holes l a b = holes u a b := fun a b => by simp only [holes, hc1]
    have hh' : ∀ a b, holes l' a b = holes u' a b := fun a b => by simp only [holes, hc1']
    rw [hc1, hc1'] at h1 h8
    simp only [hh, hh', hp] at hc
    exact card_punched hu hu' file n h1 h8 hc

end H800
