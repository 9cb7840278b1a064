import Verif.Lemmas.Crash
import Verif.Props.Newlines
import Verif.Props.Pages

/-! Lemmas for C225. -/

namespace H800

open Spec

/-! ### Beginnings of encoded texts -/

theorem encodeChar_free {c d : Char} {x y : List UInt8}
    (h : String.utf8EncodeChar c ++ x = String.utf8EncodeChar d ++ y) : c = d ∧ x = y := by
  have key : ∀ (c : Char) (x : List UInt8),
      ByteArray.utf8DecodeChar? (String.utf8EncodeChar c ++ x).toByteArray 0 = some c := by
    intro c x
    rw [List.toByteArray_append]
    exact ByteArray.utf8DecodeChar?_utf8EncodeChar_append
  have h1 : some c = some d := by rw [← key c x, h, key]
  injection h1 with h1
  subst h1
  exact ⟨rfl, List.append_cancel_left h⟩

theorem encoded_append (a b : Str) : encoded (a ++ b) = encoded a ++ encoded b := by
  unfold encoded
  rw [List.flatMap_append]

theorem encoded_prefix {a b : Str} {x : List UInt8} (h : encoded a ++ x = encoded b) :
    ∃ c, b = a ++ c ∧ x = encoded c := by
  induction a generalizing b with
  | nil => exact ⟨b, rfl, h⟩
  | cons c a ih =>
    cases b with
    | nil =>
      have h1 : (String.utf8EncodeChar c ++ encoded a) ++ x = [] := h
      have := (List.append_eq_nil_iff.1 (List.append_eq_nil_iff.1 h1).1).1
      exact absurd this String.utf8EncodeChar_ne_nil
    | cons d b =>
      have h1 : (String.utf8EncodeChar c ++ encoded a) ++ x = String.utf8EncodeChar d ++ encoded b := h
      rw [List.append_assoc] at h1
      obtain ⟨rfl, h2⟩ := encodeChar_free h1
      obtain ⟨r, rfl, h3⟩ := ih h2
      exact ⟨r, rfl, h3⟩

/-- Of an encoded text that is cut off, what is left is a text only if no character was cut. -/
theorem encoded_cut {s s' app : Str} {begun more : List UInt8} (h1 : encoded app = begun ++ more)
    (h2 : encoded s ++ begun = encoded s') : ∃ P, s' = s ++ P ∧ P <+: app := by
  obtain ⟨P, rfl, h3⟩ := encoded_prefix h2
  refine ⟨P, rfl, ?_⟩
  rw [h3] at h1
  obtain ⟨R, rfl, -⟩ := encoded_prefix h1.symm
  exact List.prefix_append _ _

/-- An ASCII text that is cut off is a text. -/
theorem encoded_ascii {s : Str} (h : ∀ c ∈ s, c.toNat < 128) {begun more : List UInt8}
    (h1 : encoded s = begun ++ more) : ∃ P, begun = encoded P := by
  induction s generalizing begun with
  | nil =>
    have := (List.append_eq_nil_iff.1 (show begun ++ more = [] from h1.symm)).1
    exact ⟨[], this⟩
  | cons c s ih =>
    cases begun with
    | nil => exact ⟨[], rfl⟩
    | cons b begun =>
      have hc : String.utf8EncodeChar c = [UInt8.ofNat c.toNat] := by
        have := h c List.mem_cons_self
        unfold String.utf8EncodeChar
        have e : c.val.toNat = c.toNat := rfl
        simp only [e]
        rw [if_pos (by omega)]
      have h2 : String.utf8EncodeChar c ++ encoded s = b :: (begun ++ more) := h1
      rw [hc] at h2
      injection h2 with h3 h4
      obtain ⟨P, hP⟩ := ih (fun c hc => h c (List.mem_cons_of_mem _ hc)) h4
      refine ⟨c :: P, ?_⟩
      show _ = String.utf8EncodeChar c ++ encoded P
      rw [hc, ← h3, hP]
      rfl

/-! ### Lines of a text that is cut off -/

theorem readlines_ne {s : Str} (h : s ≠ []) : readlines s ≠ [] := by
  cases s with
  | nil => exact absurd rfl h
  | cons c s =>
    rw [readlines]
    split
    · simp
    · split <;> simp

theorem readlines_ended (u R : Str) :
    readlines (u ++ '\n' :: R) = readlines (u ++ ['\n']) ++ readlines R := by
  induction u with
  | nil => simp [readlines]
  | cons c u ih =>
    rw [List.cons_append, List.cons_append, readlines, readlines, ih]
    by_cases hc : c = '\n'
    · rw [if_pos hc, if_pos hc]; rfl
    · rw [if_neg hc, if_neg hc]
      cases h : readlines (u ++ ['\n']) with
      | nil => exact absurd h (readlines_ne (by simp))
      | cons m ms => rfl

theorem readlines_whole {t : Str} (h : '\n' ∉ t) (hne : t ≠ []) : readlines t = [t] := by
  induction t with
  | nil => exact absurd rfl hne
  | cons c t ih =>
    have hc : c ≠ '\n' := fun e => h (e ▸ List.mem_cons_self)
    rw [readlines, if_neg hc]
    cases t with
    | nil => rfl
    | cons d t => rw [ih (fun hm => h (List.mem_cons_of_mem _ hm)) (by simp)]

theorem readlines_prefix {ls : List Str} (h : ∀ l ∈ ls, ∃ t, l = t ++ ['\n'] ∧ '\n' ∉ t) {P : Str}
    (hP : P <+: ls.flatten) : ∀ m ∈ readlines P, m ≠ [] ∧ ∃ l ∈ ls, m <+: l := by
  induction ls generalizing P with
  | nil =>
    have : P = [] := List.prefix_nil.1 hP
    subst this
    intro m hm
    cases hm
  | cons l ls ih =>
    obtain ⟨t, rfl, ht⟩ := h l List.mem_cons_self
    rw [List.flatten_cons] at hP
    obtain ⟨Q, hQ⟩ := hP
    rcases List.append_eq_append_iff.1 hQ with ⟨a, h1, -⟩ | ⟨a, rfl, h2⟩
    · -- within the first line
      intro m hm
      rcases List.append_eq_append_iff.1 h1 with ⟨b, rfl, h3⟩ | ⟨b, h2, h3⟩
      · cases b with
        | nil =>
          rw [List.append_nil] at hm
          have hne : t ≠ [] := by rintro rfl; cases hm
          rw [readlines_whole ht hne, List.mem_singleton] at hm
          subst hm
          exact ⟨hne, _, List.mem_cons_self, List.prefix_append _ _⟩
        | cons c b =>
          have hc : c = '\n' ∧ b = [] := by
            injection h3 with h4 h5
            exact ⟨h4.symm, (List.append_eq_nil_iff.1 h5.symm).1⟩
          obtain ⟨rfl, rfl⟩ := hc
          rw [readlines_append ht] at hm
          have hm : m = t ++ ['\n'] := by simpa [readlines] using hm
          subst hm
          exact ⟨by simp, _, List.mem_cons_self, List.prefix_refl _⟩
      · have hP : '\n' ∉ P := fun hm => ht (by rw [h2]; exact List.mem_append_left _ hm)
        have hne : P ≠ [] := by rintro rfl; cases hm
        rw [readlines_whole hP hne, List.mem_singleton] at hm
        subst hm
        exact ⟨hne, _, List.mem_cons_self, by rw [h1]; exact List.prefix_append _ _⟩
    · rw [List.append_assoc, List.singleton_append, readlines_append ht]
      intro m hm
      rcases List.mem_cons.1 hm with rfl | hm
      · exact ⟨by simp, _, List.mem_cons_self, List.prefix_refl _⟩
      · obtain ⟨h3, l, h4, h5⟩ := ih (fun l hl => h l (List.mem_cons_of_mem _ hl)) ⟨Q, h2.symm⟩ m hm
        exact ⟨h3, l, List.mem_cons_of_mem _ h4, h5⟩

theorem appended_head (col8 : RVal) (sec : Str) (start end_ : Int) {l : Str}
    (hl : l ∈ appended col8 sec start end_) :
    l = ['\n'] ∨ l.head? = some '#' ∨ l.head? = some 'L' := by
  rcases List.mem_cons.1 hl with rfl | hl
  · exact Or.inr (Or.inr rfl)
  · obtain ⟨n, -, hl⟩ := List.mem_flatMap.1 hl
    unfold pageLines at hl
    simp only [List.mem_cons, List.not_mem_nil, or_false] at hl
    rcases hl with rfl | rfl | rfl | rfl
    · exact Or.inl rfl
    · exact Or.inr (Or.inl rfl)
    · exact Or.inr (Or.inl rfl)
    · exact Or.inl rfl

/-- The lines of the text appended, when it is cut off. -/
theorem appended_begun {col8 : RVal} {sec : Str} (hcol : '\n' ∉ col8.toStr) (hsec : '\n' ∉ sec)
    {start end_ : Int} {R : Str} (hR : R <+: (appended col8 sec start end_).flatten) :
    ∀ m ∈ readlines R, NoCode m ∧ ¬ Begins (py "# Pages: ") m := by
  intro m hm
  obtain ⟨hne, l, hl, hml⟩ := readlines_prefix (fun l hl => by
    obtain ⟨t, h1, h2, -⟩ := appended_line hcol hsec start end_ hl
    exact ⟨t, h1, h2⟩) hR m hm
  obtain ⟨t, rfl, ht, hb⟩ := appended_line hcol hsec start end_ hl
  constructor
  · have hhead : m.head? = (t ++ ['\n']).head? := by
      obtain ⟨r, hr⟩ := hml
      rw [← hr]
      cases m with
      | nil => exact absurd rfl hne
      | cons c m => rfl
    rcases appended_head col8 sec start end_ hl with h | h | h
    · rw [h] at hml hhead
      have hm' : m = ['\n'] := by
        cases m with
        | nil => exact absurd rfl hne
        | cons c m =>
          obtain ⟨r, hr⟩ := hml
          injection hr with h1 h2
          rw [h1, (List.append_eq_nil_iff.1 h2).1]
      rw [hm']
      exact Or.inr (Or.inr blank_newline)
    · exact Or.inl (hhead.trans h)
    · exact Or.inr (Or.inl (Or.inr (Or.inr (hhead.trans h))))
  · rintro ⟨r, rfl⟩
    obtain ⟨r', hr'⟩ := hml
    rcases List.eq_nil_or_concat (r ++ r') with h | ⟨x, y, h⟩
    · rw [List.append_assoc, h, List.append_nil] at hr'
      have := congrArg List.getLast? hr'
      rw [List.getLast?_concat] at this
      exact absurd this (by decide)
    · rw [List.concat_eq_append] at h
      rw [List.append_assoc, h, ← List.append_assoc] at hr'
      exact hb ⟨x, (List.append_inj_left' hr' rfl).symm⟩

/-! ### What the next run finds -/

theorem begun_info {A E B : List Str} {sec : Str} {col8 : RVal} {p : Int × Int}
    (hi : A.foldlM pagesStep ⟨(logOf A).1, (logOf A).2, none⟩ = .ok ⟨some sec, col8, some p⟩)
    (hE : ∀ l ∈ E, l = []) (hB : ∀ l ∈ B, ¬ Begins (py "# Pages: ") l) :
    ∃ sec' col8', (A ++ E ++ B).foldlM pagesStep
        ⟨(logOf (A ++ E ++ B)).1, (logOf (A ++ E ++ B)).2, none⟩ = .ok ⟨some sec', col8', some p⟩ ∧
      ((∃ l ∈ A, l.head? = some 'L') → sec' = sec ∧ col8' = col8) := by
  obtain ⟨h1, h2⟩ := fold_unsplit (s := logOf A) hi
  have hEB : ∀ l ∈ E ++ B, ¬ Begins (py "# Pages: ") l := by
    intro l hl
    rcases List.mem_append.1 hl with hl | hl
    · rw [hE l hl]
      rintro ⟨r, hr⟩
      cases hr
    · exact hB l hl
  have hpg : (A ++ (E ++ B)).foldlM pgStep none = .ok (some p) := by
    rw [foldlM_append_ok h2]
    exact pgFold_none hEB _
  rw [List.append_assoc]
  by_cases hL : ∃ l ∈ A, l.head? = some 'L'
  · rw [logOf_append, if_pos hL]
    obtain ⟨x, v, hx⟩ := logOf_some hL
    rw [hx] at h1 ⊢
    rw [secFold_some] at h1
    cases h1
    exact ⟨_, _, fold_split (s := (some sec, col8)) (secFold_some _ _ _) hpg, fun _ => ⟨rfl, rfl⟩⟩
  · by_cases hM : ∃ l ∈ E ++ B, l.head? = some 'L'
    · rw [logOf_append, if_neg hL]
      obtain ⟨x, v, hx⟩ := logOf_some hM
      rw [hx]
      exact ⟨_, _, fold_split (s := (some x, v)) (secFold_some _ _ _) hpg, fun h => absurd h hL⟩
    · have hN : ∀ l ∈ E ++ B, l.head? ≠ some 'L' := fun l hl e => hM ⟨l, hl, e⟩
      have hA : ∀ l ∈ A, l.head? ≠ some 'L' := fun l hl e => hL ⟨l, hl, e⟩
      rw [logOf_append, if_neg hL, logOf_none hN]
      rw [logOf_none hA] at h1
      refine ⟨sec, col8, fold_split (s := (none, RVal.none)) (s' := (some sec, col8)) ?_ hpg,
        fun _ => ⟨rfl, rfl⟩⟩
      rw [foldlM_append_ok h1]
      exact secFold_some _ _ _

/-- The lines of two texts without their ends; the second one is the first one with more lines. -/
structure Longer (text text' : Str) (B : List Str) : Prop where
  lines : ∃ E : List Str, (∀ l ∈ E, l = []) ∧ (readlines text').map (remove · '\n') =
    (readlines text).map (remove · '\n') ++ E ++ B.map (remove · '\n')
  ext : (∀ l ∈ B, NoCode l) → Extends (readlines text) (readlines text')

theorem longer (s : Str) {R : Str} (hR : '\r' ∉ R) :
    Longer (universal s) (universal (s ++ '\n' :: R)) (readlines R) := by
  by_cases hs : s.getLast? = some '\r'
  · obtain ⟨u, rfl⟩ : ∃ x, s = x ++ ['\r'] := List.getLast?_eq_some_iff.1 hs
    have h1 : universal (u ++ ['\r']) = universal u ++ ['\n'] := by
      rw [universal_join (a := u) (by simp)]
      rfl
    have h2 : readlines (universal (u ++ ['\r'] ++ '\n' :: R)) =
        readlines (universal (u ++ ['\r'])) ++ readlines R := by
      rw [universal_joined hs, universal_plain hR, h1, List.append_assoc, List.singleton_append,
        readlines_ended]
    exact ⟨⟨[], by simp, by rw [h2]; simp⟩, fun h => by rw [h2]; exact extends_same _ _ h⟩
  · have h1 : universal (s ++ '\n' :: R) = universal s ++ '\n' :: R := by
      rw [universal_join (fun h => absurd h hs), universal_plain (l := '\n' :: R)]
      simp only [List.mem_cons, not_or]
      exact ⟨by decide, hR⟩
    rw [h1]
    obtain ⟨E, hE, h2⟩ := readlines_chomp (universal s) R
    exact ⟨⟨E, by rcases hE with rfl | rfl <;> simp, h2⟩, fun h => readlines_tail _ _ h⟩

/-- Is there a log card? -/
def HasLog (ls : List Str) : Prop := ∃ l ∈ ls, l.head? = some 'L'

theorem hasLog_chomp (t : Str) : HasLog (readlines t) ↔ HasLog ((readlines t).map (remove · '\n')) := by
  have key : ∀ l ∈ readlines t, l.head? = some 'L' ↔ (remove l '\n').head? = some 'L' := by
    intro l hl
    obtain ⟨t, ht, rfl | rfl⟩ := readlines_line hl
    · rw [remove_none ht]
    · rw [remove_last ht]; cases t <;> simp
  constructor
  · rintro ⟨l, hl, h⟩
    exact ⟨_, List.mem_map.2 ⟨l, hl, rfl⟩, (key l hl).1 h⟩
  · rintro ⟨l', hl', h⟩
    obtain ⟨l, hl, rfl⟩ := List.mem_map.1 hl'
    exact ⟨l, hl, (key l hl).2 h⟩

theorem extends_refl (ls : List Str) : Extends ls ls := by
  have := extends_same ls [] (by simp)
  rwa [List.append_nil] at this

/-- What the next run finds after one that was stopped. -/
theorem pagesInfo_begun (fs : FileSystem) (n : Nat) {s P sec : Str} {col8 : RVal} {start end_ : Int}
    (hi : pagesInfo fs n (readlines (universal s)) = .ok ⟨some sec, col8, some (start, end_)⟩)
    (hP : P <+: (pagesLines col8 sec start end_).flatten) :
    Extends (readlines (universal s)) (readlines (universal (s ++ P))) ∧
    ∃ sec' col8', pagesInfo fs n (readlines (universal (s ++ P))) =
        .ok ⟨some sec', col8', some (start, end_)⟩ ∧
      (HasLog (readlines (universal s)) →
        sec' = sec ∧ col8' = col8 ∧ HasLog (readlines (universal (s ++ P)))) := by
  cases P with
  | nil =>
    rw [List.append_nil]
    exact ⟨extends_refl _, sec, col8, hi, fun h => ⟨rfl, rfl, h⟩⟩
  | cons c R =>
    rw [appended_flatten] at hP
    obtain ⟨rfl, hR⟩ := List.cons_prefix_cons.1 hP
    obtain ⟨hsec, hcol⟩ := pagesInfo_newline hi
    have hsec := hsec sec rfl
    have hcol : '\n' ∉ col8.toStr := hcol
    obtain ⟨hsec', hcol'⟩ := pagesInfo_return (fun l hl hm => universal_return s (by
      rw [← flatten_readlines (universal s)]
      exact List.mem_flatten.2 ⟨l, hl, hm⟩)) hi
    have hsec' := hsec' sec rfl
    have hcol' : '\r' ∉ col8.toStr := hcol'
    obtain ⟨app, happ, he⟩ := pagesLines_return hsec' hcol' start end_
    rw [appended_flatten] at he
    injection he with _ he
    have hRr : '\r' ∉ R := fun hm => happ (by rw [← he]; exact hR.subset hm)
    obtain ⟨⟨E, hE, hl⟩, hx⟩ := longer s hRr
    have hlines := appended_begun hcol hsec hR
    refine ⟨hx fun l hl => (hlines l hl).1, ?_⟩
    have hfl : ∀ (t : Str), ∀ l ∈ readlines t, FileLine l := fun t l hl => readlines_line hl
    rw [pagesInfo_chomp fs n (hfl _), pagesInfo_eq] at hi
    have hB : ∀ l ∈ (readlines R).map (remove · '\n'), ¬ Begins (py "# Pages: ") l := by
      intro l hl
      obtain ⟨m, hm, rfl⟩ := List.mem_map.1 hl
      rintro ⟨r, hr⟩
      have hb := (hlines m hm).2
      obtain ⟨t, ht, rfl | rfl⟩ := hfl R m hm
      · rw [remove_none ht] at hr
        exact hb ⟨r, hr⟩
      · rw [remove_last ht] at hr
        exact hb ⟨r ++ ['\n'], by rw [hr, List.append_assoc]⟩
    obtain ⟨sec', col8', h1, h2⟩ := begun_info hi hE hB
    refine ⟨sec', col8', ?_, fun hL => ?_⟩
    · rw [pagesInfo_chomp fs n (hfl _), pagesInfo_eq, hl]
      exact h1
    · rw [hasLog_chomp] at hL
      obtain ⟨h3, h4⟩ := h2 hL
      refine ⟨h3, h4, ?_⟩
      rw [hasLog_chomp, hl]
      obtain ⟨l, hm, h⟩ := hL
      exact ⟨l, List.mem_append_left _ (List.mem_append_left _ hm), h⟩

/-! ### Extensions of extensions -/

theorem noCode_newline {l : Str} (h : NoCode l) : NoCode (l ++ ['\n']) := by
  rcases h with h | h | h
  · left
    cases l with
    | nil => cases h
    | cons c l => exact h
  · right; left
    cases l with
    | nil => rcases h with h | h | h <;> cases h
    | cons c l => exact h
  · right; right
    intro c hc
    rcases List.mem_append.1 hc with hc | hc
    · exact h c hc
    · exact blank_newline c hc

theorem extends_noCode {a b : List Str} (h : Extends a b) (ha : ∀ l ∈ a, NoCode l) :
    ∀ l ∈ b, NoCode l := by
  induction h with
  | more added h => exact h
  | line l h ih =>
    intro m hm
    rcases List.mem_cons.1 hm with rfl | hm
    · exact ha _ List.mem_cons_self
    · exact ih (fun l hl => ha l (List.mem_cons_of_mem _ hl)) m hm
  | last l added hl h =>
    intro m hm
    rcases List.mem_cons.1 hm with rfl | hm
    · exact noCode_newline (ha _ List.mem_cons_self)
    · exact h m hm

theorem extends_trans {a b c : List Str} (h : Extends a b) (h' : Extends b c) : Extends a c := by
  induction h generalizing c with
  | more added h => exact .more _ (extends_noCode h' h)
  | line l h ih =>
    cases h' with
    | line _ h' => exact .line _ (ih h')
    | last _ added hl hadd =>
      cases h with
      | more _ _ => exact .last _ _ hl hadd
  | last l added hl h =>
    cases h' with
    | line _ h' => exact .last _ _ hl (extends_noCode h' h)
    | last _ _ hn _ => exact absurd (by simp) hn

/-! ### genpages -/

/-- A run of genpages on one file. -/
inductive PagesRun (n : Nat) (disk : Disk) (file : Str) : Prop
  | fails (e : Stop) : genpagesE disk n [file] = ([], .error e) →
      genpagesD disk n [file] = (disk, .error e) → PagesRun n disk file
  | writes (s sec : Str) (col8 : RVal) (start end_ : Int) : disk file = some (.file (encoded s)) →
      pagesInfo (fun _ => none) n (readlines (universal s)) = .ok ⟨some sec, col8, some (start, end_)⟩ →
      start ≤ end_ →
      genpagesE disk n [file] =
        ((encoded (pagesLines col8 sec start end_).flatten).map (.append file), .ok ()) →
      genpagesD disk n [file] =
        (putFile disk file (encoded (s ++ (pagesLines col8 sec start end_).flatten)), .ok ()) →
      PagesRun n disk file

theorem pages_writes {n : Nat} {disk : Disk} {file s sec : Str} {col8 : RVal} {start end_ : Int}
    (hd : disk file = some (.file (encoded s)))
    (hi : pagesInfo (fun _ => none) n (readlines (universal s)) =
      .ok ⟨some sec, col8, some (start, end_)⟩) (hle : start ≤ end_) :
    genpagesE disk n [file] =
        ((encoded (pagesLines col8 sec start end_).flatten).map (.append file), .ok ()) ∧
    genpagesD disk n [file] =
        (putFile disk file (encoded (s ++ (pagesLines col8 sec start end_).flatten)), .ok ()) := by
  have hu : utf8Decode (encoded s) = some s := utf8Decode_iff.2 rfl
  unfold genpagesE genpagesD
  simp only [hd, hu, hi]
  rw [if_neg (by omega), if_neg (by omega), utf8Encode_encoded, encoded_append]
  exact ⟨rfl, rfl⟩

theorem pages_run (n : Nat) (disk : Disk) (file : Str) : PagesRun n disk file := by
  have fails : ∀ e, genpagesE disk n [file] = ([], .error e) →
      genpagesD disk n [file] = (disk, .error e) → PagesRun n disk file := .fails
  cases hd : disk file with
  | none => exact .fails (.raised .systemExit) (by simp [genpagesE, hd]) (by simp [genpagesD, hd])
  | some node =>
    cases node with
    | locked => exact .fails .denied (by simp [genpagesE, hd]) (by simp [genpagesD, hd])
    | dir => exact .fails .isDir (by simp [genpagesE, hd]) (by simp [genpagesD, hd])
    | file bytes =>
      cases hu : utf8Decode bytes with
      | none => exact .fails .decode (by simp [genpagesE, hd, hu]) (by simp [genpagesD, hd, hu])
      | some s =>
        cases hi : pagesInfo (fun _ => none) n (readlines (universal s)) with
        | error e =>
          exact .fails (.raised e) (by simp [genpagesE, hd, hu, hi]) (by simp [genpagesD, hd, hu, hi])
        | ok st =>
          obtain ⟨sec, col8, pages⟩ := st
          cases sec with
          | none =>
            exact .fails (.raised .systemExit) (by simp [genpagesE, hd, hu, hi])
              (by simp [genpagesD, hd, hu, hi])
          | some sec =>
            cases pages with
            | none =>
              exact .fails (.raised .unboundLocal) (by simp [genpagesE, hd, hu, hi])
                (by simp [genpagesD, hd, hu, hi])
            | some p =>
              obtain ⟨start, end_⟩ := p
              by_cases hlt : start > end_
              · exact .fails (.raised .systemExit) (by simp [genpagesE, hd, hu, hi, hlt])
                  (by simp [genpagesD, hd, hu, hi, hlt])
              · have hb := utf8Decode_iff.1 hu
                subst hb
                obtain ⟨h1, h2⟩ := pages_writes hd hi (by omega)
                exact .writes s sec col8 start end_ hd hi (by omega) h1 h2

/-- What is known of a disk after runs of genpages that were stopped: there is still a text in the file,
or a character was cut off. -/
inductive PagesBegun (n : Nat) (disk : Disk) (file s sec : Str) (col8 : RVal) (start end_ : Int)
    (d : Disk) : Prop
  | text (P sec' : Str) (col8' : RVal) : d = putFile disk file (encoded (s ++ P)) →
      Extends (readlines (universal s)) (readlines (universal (s ++ P))) →
      pagesInfo (fun _ => none) n (readlines (universal (s ++ P))) =
        .ok ⟨some sec', col8', some (start, end_)⟩ →
      (HasLog (readlines (universal s)) → sec' = sec ∧ col8' = col8 ∧
        HasLog (readlines (universal (s ++ P)))) → PagesBegun n disk file s sec col8 start end_ d
  | cut (begun : List UInt8) : d = putFile disk file (encoded s ++ begun) →
      utf8Decode (encoded s ++ begun) = none → PagesBegun n disk file s sec col8 start end_ d

theorem pages_begun {n : Nat} {disk d : Disk} {file s sec : Str} {col8 : RVal} {start end_ : Int}
    (hd : disk file = some (.file (encoded s)))
    (hi : pagesInfo (fun _ => none) n (readlines (universal s)) =
      .ok ⟨some sec, col8, some (start, end_)⟩) (hle : start ≤ end_)
    (h : Interrupted (fun d => (genpagesE d n [file]).1) disk d) :
    PagesBegun n disk file s sec col8 start end_ d := by
  induction h with
  | none =>
    refine .text [] sec col8 ?_ ?_ ?_ ?_
    · rw [List.append_nil, putFile_same hd]
    · rw [List.append_nil]; exact extends_refl _
    · rw [List.append_nil]; exact hi
    · intro h
      rw [List.append_nil]
      exact ⟨rfl, rfl, h⟩
  | @again d d' h1 h2 ih =>
    obtain ⟨done, rest, h3, rfl⟩ := h2
    rcases ih with ⟨P, sec', col8', rfl, hx, hi', hL⟩ | ⟨begun, rfl, hcut⟩
    · obtain ⟨h4, -⟩ := pages_writes (putFile_self disk file (encoded (s ++ P))) hi' hle
      rw [h4] at h3
      obtain ⟨a, b, h5, rfl⟩ := appends_prefix h3
      rw [appends_run a (putFile_self disk file (encoded (s ++ P))), putFile_putFile]
      cases hu : utf8Decode (encoded (s ++ P) ++ a) with
      | none =>
        refine .cut (encoded P ++ a) ?_ ?_
        · rw [encoded_append, List.append_assoc]
        · rw [← List.append_assoc, ← encoded_append, hu]
      | some s' =>
        have h6 := utf8Decode_iff.1 hu
        obtain ⟨Q, rfl, hQ⟩ := encoded_cut h5 h6
        obtain ⟨hx', sec'', col8'', hi'', hL'⟩ := pagesInfo_begun _ n hi' hQ
        rw [List.append_assoc] at hx' hi'' hL'
        refine .text (P ++ Q) sec'' col8'' ?_ (extends_trans hx hx') hi'' fun h => ?_
        · rw [h6, List.append_assoc]
        · obtain ⟨e1, e2, e3⟩ := hL h
          obtain ⟨e4, e5, e6⟩ := hL' e3
          exact ⟨e4.trans e1, e5.trans e2, e6⟩
    · have h4 : genpagesE (putFile disk file (encoded s ++ begun)) n [file] = ([], .error .decode) := by
        simp [genpagesE, putFile_self, hcut]
      rw [h4] at h3
      have : done = [] := (List.append_eq_nil_iff.1 h3.symm).1
      subst this
      exact .cut begun rfl hcut

/-! ### ASCII -/

theorem universal_mem {s : Str} {c : Char} (h : c ∈ universal s) : c ∈ s ∨ c = '\n' := by
  induction s with
  | nil => cases h
  | cons d s ih =>
    rw [universal] at h
    by_cases hd : d = '\r'
    · rw [if_pos hd] at h
      split at h
      · rcases ih h with h | h
        · exact .inl (List.mem_cons_of_mem _ h)
        · exact .inr h
      · rcases List.mem_cons.1 h with h | h
        · exact .inr h
        · rcases ih h with h | h
          · exact .inl (List.mem_cons_of_mem _ h)
          · exact .inr h
    · rw [if_neg hd] at h
      rcases List.mem_cons.1 h with h | h
      · exact .inl (h ▸ List.mem_cons_self)
      · rcases ih h with h | h
        · exact .inl (List.mem_cons_of_mem _ h)
        · exact .inr h

theorem wordsAux_sub (u s : Str) : ∀ w ∈ wordsAux u s, ∀ c ∈ w, c ∈ u ∨ c ∈ s := by
  induction s generalizing u with
  | nil =>
    rw [wordsAux]
    split
    · simp
    · intro w hw c hc
      rw [List.mem_singleton.1 hw] at hc
      exact .inl (List.mem_reverse.1 hc)
  | cons x s ih =>
    have hnil : ∀ w ∈ wordsAux [] s, ∀ c ∈ w, c ∈ u ∨ c ∈ x :: s := by
      intro w hw c hc
      rcases ih [] w hw c hc with h | h
      · cases h
      · exact .inr (List.mem_cons_of_mem _ h)
    rw [wordsAux]
    split
    · split
      · exact hnil
      · intro w hw c hc
        rcases List.mem_cons.1 hw with rfl | hw
        · exact .inl (List.mem_reverse.1 hc)
        · exact hnil w hw c hc
    · intro w hw c hc
      rcases ih (x :: u) w hw c hc with h | h
      · rcases List.mem_cons.1 h with rfl | h
        · exact .inr List.mem_cons_self
        · exact .inl h
      · exact .inr (List.mem_cons_of_mem _ h)

theorem sectionOf_sub {line s : Str} (h : sectionOf line = .ok s) {c : Char} (hc : c ∈ s) :
    c ∈ line ∨ c = ' ' := by
  unfold sectionOf at h
  cases hg : getE (pyWords line) 2 with
  | error e => rw [hg] at h; cases h
  | ok w =>
    rw [hg] at h
    simp only [py_bind_ok, py_pure, Except.ok.injEq] at h
    have hw : w ∈ pyWords line := by
      unfold getE at hg
      split at hg
      · rename_i x hx
        cases hg
        exact List.mem_of_getElem? hx
      · cases hg
    have hn : ∀ c ∈ strip w, c ∈ line := by
      intro c hc
      rcases wordsAux_sub [] line w hw c (strip_mem hc) with h | h
      · cases h
      · exact h
    rw [← h, List.mem_map] at hc
    obtain ⟨d, hd, he⟩ := hc
    by_cases hu : d = '_'
    · rw [if_pos hu] at he
      exact .inr he.symm
    · rw [if_neg hu] at he
      subst he
      left
      split at hd
      · unfold splitFirst at hd
        exact hn _ ((List.takeWhile_sublist _).mem hd)
      · exact hn _ hd

theorem pagesInfo_sub {fs : FileSystem} {fuel : Nat} {lines : List Str} {st : PagesState}
    (h : pagesInfo fs fuel lines = .ok st) (Q : Char → Prop) (hl : ∀ l ∈ lines, ∀ c ∈ l, Q c)
    (hQ : ∀ c ∈ py " @None", Q c) :
    (∀ s, st.section_ = some s → ∀ c ∈ s, Q c) ∧ ∀ c ∈ st.col8.toStr, Q c := by
  have hnone : ∀ c ∈ py "None", Q c := fun c hc => hQ c (List.mem_cons_of_mem _ (List.mem_cons_of_mem _ hc))
  rw [pagesInfo_eq] at h
  have h0 : (∀ s, (logOf lines).1 = some s → ∀ c ∈ s, Q c) ∧ ∀ c ∈ (logOf lines).2.toStr, Q c := by
    clear h
    induction lines with
    | nil => exact ⟨fun s e => (nomatch e), hnone⟩
    | cons l ls ih =>
      rw [logOf]
      split
      · refine ⟨fun s hs c hm => ?_, fun c hm => ?_⟩
        · cases hs
          have := strip_mem hm
          unfold slice remove at this
          exact hl l List.mem_cons_self _
            (List.mem_filter.1 (List.mem_of_mem_drop (List.mem_of_mem_take this))).1
        · unfold val at hm
          cases he : PunchCard.entry (columns l 8 9) with
          | none =>
            rw [he] at hm
            exact hnone c hm
          | some t =>
            rw [he] at hm
            obtain ⟨rfl, -⟩ := entry_some.1 he
            have := strip_mem hm
            unfold columns at this
            exact hl l List.mem_cons_self _ (List.mem_of_mem_drop (List.mem_of_mem_take this))
      · exact ih fun l hm => hl l (List.mem_cons_of_mem _ hm)
  have key : ∀ (ls : List Str) (s : Option Str × RVal) (p : Option (Int × Int)),
      (∀ l ∈ ls, ∀ c ∈ l, Q c) → ls.foldlM pagesStep ⟨s.1, s.2, p⟩ = .ok st →
      ((∀ x, s.1 = some x → ∀ c ∈ x, Q c) ∧ ∀ c ∈ s.2.toStr, Q c) →
      (∀ x, st.section_ = some x → ∀ c ∈ x, Q c) ∧ ∀ c ∈ st.col8.toStr, Q c := by
    intro ls
    induction ls with
    | nil => intro s p _ h h0; cases h; exact h0
    | cons l ls ih =>
      intro s p hls h h0
      rw [List.foldlM_cons, pagesStep_split] at h
      cases h1 : secStep s l with
      | error e => rw [h1] at h; cases h
      | ok s1 =>
        cases h2 : pgStep p l with
        | error e => rw [h1, h2] at h; cases h
        | ok p1 =>
          rw [h1, h2] at h
          refine ih s1 p1 (fun l hl => hls l (List.mem_cons_of_mem _ hl)) h ?_
          unfold secStep at h1
          split at h1
          · cases hx : sectionOf l with
            | error e => rw [hx] at h1; cases h1
            | ok x =>
              rw [hx] at h1
              cases h1
              refine ⟨fun y hy c hc => ?_, fun c hc => hQ c ?_⟩
              · cases hy
                rcases sectionOf_sub hx hc with h | rfl
                · exact hls l List.mem_cons_self c h
                · exact hQ _ List.mem_cons_self
              · have : c = '@' := by simpa [RVal.toStr] using hc
                rw [this]; decide
          · cases h1; exact h0
  exact key lines _ none hl h h0

theorem pagesLines_ascii {v : RVal} {sec : Str} (hs : ∀ c ∈ sec, c.toNat < 128)
    (hv : ∀ c ∈ v.toStr, c.toNat < 128) (start end_ : Int) :
    ∀ c ∈ (pagesLines v sec start end_).flatten, c.toNat < 128 := by
  have hn : ∀ (n : Nat) (c : Char), c ∈ numeral 10 n → c.toNat < 128 := by
    intro n c hc
    have := (numeral_decimal n).2.1 c hc
    have h9 : '9'.toNat = 57 := rfl
    omega
  have hp : ∀ (n : Int) (c : Char), c ∈ pyStr n → c.toNat < 128 := by
    intro n c hc
    unfold pyStr at hc
    split at hc
    · rcases List.mem_cons.1 hc with rfl | hc
      · decide
      · exact hn _ c hc
    · exact hn _ c hc
  have hpad : ∀ (n : Nat) (s : Str), (∀ c ∈ s, c.toNat < 128) → ∀ c ∈ padLeft ' ' n s, c.toNat < 128 := by
    intro n s hs c hc
    unfold padLeft at hc
    rcases List.mem_append.1 hc with hc | hc
    · rw [(List.mem_replicate.1 hc).2]; decide
    · exact hs c hc
  have hpr : ∀ c ∈ padRight 72 sec, c.toNat < 128 := by
    intro c hc
    unfold padRight at hc
    rcases List.mem_append.1 hc with hc | hc
    · exact hs c hc
    · rw [(List.mem_replicate.1 hc).2]; decide
  have lit : ∀ {s : Str}, (s.all fun c => decide (c.toNat < 128)) = true → ∀ c ∈ s, c.toNat < 128 := by
    intro s h c hc
    simpa using List.all_eq_true.1 h c hc
  have app : ∀ {a b : Str}, (∀ c ∈ a, c.toNat < 128) → (∀ c ∈ b, c.toNat < 128) →
      ∀ c ∈ a ++ b, c.toNat < 128 := by
    intro a b ha hb c hc
    rcases List.mem_append.1 hc with hc | hc
    · exact ha c hc
    · exact hb c hc
  intro c hc
  obtain ⟨l, hl, hm⟩ := List.mem_flatten.1 hc
  clear hc
  revert c
  unfold pagesLines at hl
  rcases List.mem_append.1 hl with hl | hl
  · simp only [List.mem_cons, List.not_mem_nil, or_false] at hl
    rcases hl with rfl | rfl
    · exact lit (by decide)
    · exact app (app (app (lit (by decide)) hv) hs) (lit (by decide))
  · obtain ⟨n, -, hl⟩ := List.mem_flatMap.1 hl
    unfold pageLines at hl
    simp only [List.mem_cons, List.not_mem_nil, or_false] at hl
    rcases hl with rfl | rfl | rfl | rfl
    · exact lit (by decide)
    · exact app (app (lit (by decide)) (hp n)) (lit (by decide))
    · exact app (app (app (app (app (app (app (lit (by decide)) hv) hpr) (lit (by decide)))
        (hpad 4 _ (hp _))) (lit (by decide))) (hpad 4 _ (hp _))) (lit (by decide))
    · exact lit (by decide)

end H800
