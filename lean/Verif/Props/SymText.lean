import Verif.Model.ListText
import Verif.Props.SymOrder
import Verif.Props.DetailsBack

/-!
Property C149: the text of a symbol listing determines the definitions listed.
-/

namespace H800

open Spec

/-! ### Auxiliary facts -/

theorem until_char {c : Char} {m m' T T' : Str} (h : c ∉ m) (h' : c ∉ m')
    (e : m ++ c :: T = m' ++ c :: T') : m = m' ∧ T = T' := by
  induction m generalizing m' with
  | nil =>
    cases m' with
    | nil => simp only [List.nil_append, List.cons.injEq, true_and] at e; exact ⟨rfl, e⟩
    | cons d m' =>
      simp only [List.nil_append, List.cons_append, List.cons.injEq] at e
      exact absurd (by rw [e.1]; simp) h'
  | cons d m ih =>
    cases m' with
    | nil =>
      simp only [List.nil_append, List.cons_append, List.cons.injEq] at e
      exact absurd (by rw [e.1]; simp) h
    | cons d' m' =>
      simp only [List.cons_append, List.cons.injEq] at e
      obtain ⟨rfl, e⟩ := e
      obtain ⟨rfl, h2⟩ := ih (fun hm => h (List.mem_cons_of_mem _ hm))
        (fun hm => h' (List.mem_cons_of_mem _ hm)) e
      exact ⟨rfl, h2⟩

theorem after_char {c : Char} {m m' T T' : Str} (h : c ∉ T) (h' : c ∉ T')
    (e : m ++ c :: T = m' ++ c :: T') : m = m' ∧ T = T' := by
  have e2 := congrArg List.reverse e
  simp only [List.reverse_append, List.reverse_cons, List.append_assoc, List.singleton_append] at e2
  obtain ⟨h1, h2⟩ := until_char (by simpa using h) (by simpa using h') e2
  exact ⟨List.reverse_injective h2, List.reverse_injective h1⟩

/-- What is needed of a line so that it can be told from its text. -/
def Plainly : ListLine → Prop
  | .sym s => ' ' ∉ s ∧ '\n' ∉ s
  | .seg s => '\n' ∉ s
  | .sub s => '\n' ∉ s
  | .entry k tt f n c => (k = py "simple" ∨ k = py "complex") ∧ (∃ x, tt = [x] ∧ x ≠ '\n') ∧
      (' ' ∉ f ∧ '\n' ∉ f) ∧ (∃ m : Nat, n = m) ∧ '\n' ∉ c
  | .errors _ => False

theorem entry_text {k tt f c : Str} {n : Int} (h : Plainly (.entry k tt f n c)) :
    ∃ (k9 : Str) (x : Char) (m : Nat) (p : Str), k9.length = 9 ∧ k9.head? = some '<' ∧
      (k9 = py "<simple> " ∧ k = py "simple" ∨ k9 = py "<complex>" ∧ k = py "complex") ∧
      tt = [x] ∧ n = m ∧ LeftIn 38 (f ++ ':' :: numeral 10 m) p ∧
      (ListLine.entry k tt f n c).text =
        py "        " ++ (k9 ++ (' ' :: x :: ' ' :: (p ++ ' ' :: (py "     " ++ c)))) := by
  obtain ⟨hk, ⟨x, rfl, -⟩, -, ⟨m, rfl⟩, -⟩ := h
  rcases hk with rfl | rfl
  · refine ⟨py "<simple> ", x, m, padRight 38 (f ++ ':' :: numeral 10 m), rfl, rfl,
      Or.inl ⟨rfl, rfl⟩, rfl, rfl, padRight_leftIn _ _, ?_⟩
    simp only [ListLine.text, pyStr_nat, List.append_assoc, List.cons_append]
    rfl
  · refine ⟨py "<complex>", x, m, padRight 38 (f ++ ':' :: numeral 10 m), rfl, rfl,
      Or.inr ⟨rfl, rfl⟩, rfl, rfl, padRight_leftIn _ _, ?_⟩
    simp only [ListLine.text, pyStr_nat, List.append_assoc, List.cons_append]
    rfl

theorem numeral_no_colon (n : Nat) : ':' ∉ numeral 10 n := by
  obtain ⟨-, h, -⟩ := numeral_decimal n
  intro hc
  exact absurd (h _ hc).2 (by decide)

theorem plainly_text_inj {a b : ListLine} (ha : Plainly a) (hb : Plainly b)
    (e : a.text = b.text) : a = b := by
  have hsym : ∀ {s : Str}, Plainly (.sym s) → ∀ r, s ≠ ' ' :: r := by
    rintro s h r rfl
    exact h.1 (by simp)
  cases a with
  | errors n => exact absurd ha id
  | sym s =>
    cases b with
    | errors n => exact absurd hb id
    | sym s' => exact congrArg _ e
    | seg s' => exact absurd e (hsym ha _)
    | sub s' => exact absurd e (hsym ha _)
    | entry k tt f n c =>
      obtain ⟨k9, x, m, p, -, -, -, -, -, -, ht⟩ := entry_text hb
      rw [ht] at e
      exact absurd e (hsym ha _)
  | seg s =>
    cases b with
    | errors n => exact absurd hb id
    | sym s' => exact absurd e.symm (hsym hb _)
    | seg s' =>
      have := List.append_cancel_left e
      exact congrArg _ this
    | sub s' =>
      simp only [ListLine.text, List.cons_append, List.cons.injEq] at e
      exact absurd e.2.2.1 (by decide)
    | entry k tt f n c =>
      obtain ⟨k9, x, m, p, -, -, -, -, -, -, ht⟩ := entry_text hb
      rw [ht] at e
      simp only [ListLine.text, List.cons_append, List.cons.injEq] at e
      exact absurd e.2.2.1 (by decide)
  | sub s =>
    cases b with
    | errors n => exact absurd hb id
    | sym s' => exact absurd e.symm (hsym hb _)
    | seg s' =>
      simp only [ListLine.text, List.cons_append, List.cons.injEq] at e
      exact absurd e.2.2.1 (by decide)
    | sub s' =>
      have := List.append_cancel_left e
      exact congrArg _ this
    | entry k tt f n c =>
      obtain ⟨k9, x, m, p, -, -, -, -, -, -, ht⟩ := entry_text hb
      rw [ht] at e
      simp only [ListLine.text, List.cons_append, List.cons.injEq] at e
      exact absurd e.2.2.2.2.1 (by decide)
  | entry k tt f n c =>
    obtain ⟨k9, x, m, p, h9, hk0, hk, rfl, rfl, hp, ht⟩ := entry_text ha
    cases b with
    | errors n => exact absurd hb id
    | sym s' =>
      rw [ht] at e
      exact absurd e.symm (hsym hb _)
    | seg s' =>
      rw [ht] at e
      simp only [ListLine.text, List.cons_append, List.cons.injEq] at e
      exact absurd e.2.2.1 (by decide)
    | sub s' =>
      rw [ht] at e
      simp only [ListLine.text, List.cons_append, List.cons.injEq] at e
      exact absurd e.2.2.2.2.1 (by decide)
    | entry k' tt' f' n' c' =>
      obtain ⟨k9', x', m', p', h9', hk0', hk', rfl, rfl, hp', ht'⟩ := entry_text hb
      rw [ht, ht'] at e
      have e1 := List.append_cancel_left e
      obtain ⟨e2, e3⟩ := List.append_inj e1 (by rw [h9, h9'])
      simp only [List.cons.injEq, true_and] at e3
      obtain ⟨rfl, e3⟩ := e3
      have blank : ∀ {f : Str} (m : Nat), ' ' ∉ f → ' ' ∉ f ++ ':' :: numeral 10 m := by
        intro f m hf hc
        rcases List.mem_append.1 hc with hc | hc
        · exact hf hc
        · rcases List.mem_cons.1 hc with hc | hc
          · exact absurd hc (by decide)
          · exact (numeral_blank_free m).1 hc
      obtain ⟨e4, e5⟩ := leftIn_blank_free hp hp' (blank m ha.2.2.1.1) (blank m' hb.2.2.1.1) e3
      obtain ⟨rfl, e6⟩ := after_char (numeral_no_colon m) (numeral_no_colon m') e4
      have e7 := List.append_cancel_left e5
      subst e7
      obtain rfl := numeral_inj e6
      have : k = k' := by
        rcases hk with ⟨r1, rfl⟩ | ⟨r1, rfl⟩ <;> rcases hk' with ⟨r2, rfl⟩ | ⟨r2, rfl⟩
        · rfl
        · rw [r1, r2] at e2; exact absurd e2 (by decide)
        · rw [r1, r2] at e2; exact absurd e2 (by decide)
        · rfl
      rw [this]

theorem plainly_newline {a : ListLine} (h : Plainly a) : '\n' ∉ a.text := by
  cases a with
  | errors n => exact absurd h id
  | sym s => exact h.2
  | seg s =>
    intro hc
    rcases List.mem_append.1 hc with hc | hc
    · exact absurd hc (by decide)
    · exact h hc
  | sub s =>
    intro hc
    rcases List.mem_append.1 hc with hc | hc
    · exact absurd hc (by decide)
    · exact h hc
  | entry k tt f n c =>
    obtain ⟨k9, x, m, p, -, -, hk, rfl, rfl, ⟨j, rfl, -⟩, ht⟩ := entry_text h
    obtain ⟨-, ⟨y, hy, hx⟩, ⟨-, hf⟩, -, hc⟩ := h
    obtain rfl : x = y := by simpa using hy
    rw [ht]
    have h9 : '\n' ∉ k9 := by rcases hk with ⟨rfl, -⟩ | ⟨rfl, -⟩ <;> decide
    intro hm
    simp only [List.mem_append, List.mem_cons, List.mem_replicate] at hm
    rcases hm with hm | hm | hm | hm | hm | ((hm | hm | hm) | hm) | hm | hm | hm
    · exact absurd hm (by decide)
    · exact h9 hm
    · exact absurd hm (by decide)
    · exact hx hm.symm
    · exact absurd hm (by decide)
    · exact hf hm
    · exact absurd hm (by decide)
    · exact (numeral_blank_free m).2 hm
    · exact absurd hm.2 (by decide)
    · exact absurd hm (by decide)
    · exact absurd hm (by decide)
    · exact hc hm

/-- Text with a newline at its end at most. -/
def EndNewline (t : Str) : Prop := ∃ u, '\n' ∉ u ∧ (t = u ∨ t = u ++ ['\n'])

theorem endNewline_split {p q : Str} (h : EndNewline (p ++ '\n' :: q)) : q = [] := by
  obtain ⟨u, hu, h | h⟩ := h
  · exact absurd (by rw [← h]; simp) hu
  · by_contra hq
    have := congrArg List.dropLast h
    rw [List.dropLast_concat, List.dropLast_append_cons] at this
    rw [← this] at hu
    refine hu (List.mem_append_right _ ?_)
    cases q with
    | nil => exact absurd rfl hq
    | cons c q => simp

theorem expand_endNewline {fs : Str → Option Str} {file : Str} {i : Nat} {ls : List Str}
    {out : List Src} (h : Expand fs file i ls out) (hl : ∀ l ∈ ls, EndNewline l) :
    ∀ s ∈ out, EndNewline s.text := by
  induction h with
  | nil => intro s hs; cases hs
  | comment _ ih => exact ih fun l h => hl l (List.mem_cons_of_mem _ h)
  | incl _ _ _ _ ih1 ih2 =>
    intro s hs
    rcases List.mem_append.1 hs with hs | hs
    · exact ih1 (fun l h => readlines_line h) s hs
    · exact ih2 (fun l h => hl l (List.mem_cons_of_mem _ h)) s hs
  | plain _ _ _ ih =>
    intro s hs
    rcases List.mem_cons.1 hs with rfl | hs
    · exact hl _ List.mem_cons_self
    · exact ih (fun l h => hl l (List.mem_cons_of_mem _ h)) s hs

theorem piece_newline {t l : Str} {a b : Nat} (ht : EndNewline t)
    (h : IsEntry (columns t a b) (some l)) : '\n' ∉ l := by
  obtain ⟨hne, htr, A, B, -, -, e⟩ := h
  intro hc
  obtain ⟨p, q, rfl⟩ := List.append_of_mem hc
  have hq : q ≠ [] := by
    rintro rfl
    have := htr.2 '\n' (by simp)
    exact absurd this (by decide)
  have h1 : t = t.take (a - 1) ++ t.drop (a - 1) := (List.take_append_drop _ _).symm
  have h2 : t.drop (a - 1) = columns t a b ++ (t.drop (a - 1)).drop (b - a) :=
    (List.take_append_drop _ _).symm
  generalize (t.drop (a - 1)).drop (b - a) = Z at h2
  rw [e] at h2
  rw [h2] at h1
  generalize t.take (a - 1) = W at h1
  have e2 : t = (W ++ A ++ p) ++ '\n' :: (q ++ B ++ Z) := by rw [h1]; simp
  rw [e2] at ht
  have := endNewline_split ht
  simp only [List.append_eq_nil_iff] at this
  exact hq this.1.1

theorem row_plainly {upper : Str → Str} {fs : FileSystem} {files : List Str}
    {srcs : List (Str × List Src)} (hr : Read fs files srcs)
    (hn : ∀ f ∈ files, ' ' ∉ f ∧ '\n' ∉ f) {k i : Nat} {s : Src} {tag tt seg sub kind file : Str}
    (h : DefinedIn upper srcs k i s tag tt seg sub kind) (hf : BeforeFirst '.' s.file file) :
    Plainly (.sym tag) ∧ Plainly (.seg seg) ∧ Plainly (.sub sub) ∧
      Plainly (.entry kind tt file s.num (s.text.filter (· ≠ '\n'))) := by
  obtain ⟨f, out, hk, hseg, hi, -, ⟨l, hl, hu, htag, hcase⟩, ⟨o, ho, rfl⟩, hcur⟩ := h
  have hm := List.mem_of_getElem? hk
  have hfn := hn f (hr.1 ▸ List.mem_map.2 ⟨_, hm, rfl⟩)
  obtain ⟨text, -, hex⟩ := hr.2 _ hm
  have hend := expand_endNewline hex (fun l h => readlines_line h)
  have hs := List.mem_of_getElem? hi
  have hname : ' ' ∉ s.file ∧ '\n' ∉ s.file := by
    rcases expand_names hex s hs with h | h
    · rw [h]; exact hfn
    · exact ⟨fun hc => absurd (h _ hc) (by decide), fun hc => absurd (h _ hc) (by decide)⟩
  have hpre : ∀ {c d : Char} {x y : Str}, BeforeFirst c x y → d ∉ x → d ∉ y := by
    rintro c d x y ⟨-, rfl | ⟨r, rfl⟩⟩ hd
    · exact hd
    · exact fun hc => hd (List.mem_append_left _ hc)
  have hlab := piece_newline (hend s hs) hl.2
  have htagl : ∀ c ∈ tag, c ∈ l.filter (· ≠ ' ') := by
    intro c hc
    rcases hcase with ⟨e, -⟩ | ⟨x, -, e, -⟩
    · rw [e]; exact hc
    · rw [e]; exact List.mem_cons_of_mem _ (List.mem_cons_of_mem _ hc)
  refine ⟨⟨fun hc => ?_, fun hc => ?_⟩, hpre hseg hfn.2, ?_, ?_⟩
  · have := htagl _ hc
    simp at this
  · exact hlab (List.mem_of_mem_filter (htagl _ hc))
  · show '\n' ∉ sub
    rcases hcur with ⟨j, s', -, hj, ⟨-, o', ho', -, hsub⟩, -⟩ | ⟨rfl, -⟩
    · have hon := piece_newline (hend s' (List.mem_of_getElem? hj)) ho'.2
      rcases hsub with ⟨-, rfl⟩ | ⟨p, r, q, rfl, -, hq, -, A, B, -, -, rfl⟩
      · decide
      · intro hc
        have : '\n' ∉ r := fun h => hon (by simp [h])
        exact hpre hq this (by simp [hc])
    · decide
  · refine ⟨?_, ?_, ⟨hpre hf hname.1, hpre hf hname.2⟩, ⟨s.num, rfl⟩, by simp⟩
    · unfold kindOf
      split
      · exact Or.inr rfl
      · exact Or.inl rfl
    · rcases hcase with ⟨-, rfl⟩ | ⟨x, hx, -, rfl⟩
      · exact ⟨' ', rfl, by decide⟩
      · refine ⟨x, rfl, ?_⟩
        rintro rfl
        revert hx
        decide

theorem layout_plainly {rs : List Row} (h : ∀ r ∈ rs, Plainly (.sym r.tag) ∧ Plainly (.seg r.seg) ∧
    Plainly (.sub r.sub) ∧ Plainly (.entry r.kind r.tagtype r.file r.line r.card)) (p : Option Row) :
    ∀ x ∈ layout p rs, Plainly x := by
  induction rs generalizing p with
  | nil => intro x hx; cases hx
  | cons r rs ih =>
    obtain ⟨h1, h2, h3, h4⟩ := h r List.mem_cons_self
    intro x hx
    rw [layout] at hx
    rcases List.mem_append.1 hx with hx | hx
    · have : x = .sym r.tag ∨ x = .seg r.seg ∨ x = .sub r.sub := by
        unfold headings at hx
        split at hx
        · simpa using hx
        · split at hx
          · simpa using hx
          · split at hx
            · have : x = .seg r.seg ∨ x = .sub r.sub := by simpa using hx
              exact Or.inr this
            · split at hx
              · have : x = .sub r.sub := by simpa using hx
                exact Or.inr (Or.inr this)
              · cases hx
      rcases this with rfl | rfl | rfl
      · exact h1
      · exact h2
      · exact h3
    · rcases List.mem_cons.1 hx with rfl | hx
      · exact h4
      · exact ih (fun q hq => h q (List.mem_cons_of_mem _ hq)) _ x hx

theorem map_inj_on {α β : Type} {f : α → β} {P : α → Prop}
    (hf : ∀ a b, P a → P b → f a = f b → a = b) {l l' : List α} (hl : ∀ x ∈ l, P x)
    (hl' : ∀ x ∈ l', P x) (e : l.map f = l'.map f) : l = l' := by
  induction l generalizing l' with
  | nil => cases l' with
    | nil => rfl
    | cons a l' => cases e
  | cons a l ih =>
    cases l' with
    | nil => cases e
    | cons a' l' =>
      simp only [List.map_cons, List.cons.injEq] at e
      rw [hf a a' (hl a (by simp)) (hl' a' (by simp)) e.1,
        ih (fun x hx => hl x (List.mem_cons_of_mem _ hx))
          (fun x hx => hl' x (List.mem_cons_of_mem _ hx)) e.2]

theorem listing_layout {upper : Str → Str} {fs : FileSystem} {fuel : Nat} {files : List Str}
    {l : List ListLine} (hp : PlainFiles files) (hn : ∀ f ∈ files, ' ' ∉ f ∧ '\n' ∉ f)
    (h : listSymbols upper fs fuel files = .ok l) :
    (∀ x ∈ layout none (rows [] [] [] l), Plainly x) ∧
    l.filter ListLine.onStdout = layout none (rows [] [] [] l) := by
  obtain ⟨srcs, hr, -, hrow, -⟩ := C92_rows upper fs fuel files l hp h
  obtain ⟨-, n, -, -, hlay⟩ := C104_layout upper fs fuel files l hp h
  have hall : ∀ x ∈ layout none (rows [] [] [] l), Plainly x := by
    apply layout_plainly
    intro r hr'
    obtain ⟨k, i, s, hd, hf, e1, e2⟩ := (hrow r).1 hr'
    obtain ⟨a1, a2, a3, a4⟩ := row_plainly hr hn hd.1 hf
    rw [e1, e2]
    exact ⟨a1, a2, a3, a4⟩
  refine ⟨hall, ?_⟩
  conv_lhs => rw [hlay]
  rw [List.filter_append]
  have h1 : (layout none (rows [] [] [] l)).filter ListLine.onStdout =
      layout none (rows [] [] [] l) := by
    rw [List.filter_eq_self]
    intro x hx
    have := hall x hx
    cases x with
    | errors n => exact absurd this id
    | _ => rfl
  have h2 : (if n = 0 then [] else [ListLine.errors n]).filter ListLine.onStdout = [] := by
    split <;> rfl
  rw [h1, h2, List.append_nil]

/-! ### C149 -/

/-- C149: if two symbol listings have the same text on the standard output, they list the same
definitions in the same order: the same tags, segments, subsegments, kinds, tag types, files, line
numbers and texts. -/
theorem C149_definitions (upper upper' : Str → Str) (fs gs : FileSystem) (m n : Nat)
    (files files' : List Str) (l l' : List ListLine) (hp : PlainFiles files) (hp' : PlainFiles files')
    (hn : ∀ f ∈ files, ' ' ∉ f ∧ '\n' ∉ f) (hn' : ∀ f ∈ files', ' ' ∉ f ∧ '\n' ∉ f)
    (hl : listSymbols upper fs m files = .ok l) (hl' : listSymbols upper' gs n files' = .ok l')
    (he : listingText l = listingText l') : rows [] [] [] l = rows [] [] [] l' := by
  obtain ⟨a1, a2⟩ := listing_layout hp hn hl
  obtain ⟨b1, b2⟩ := listing_layout hp' hn' hl'
  unfold listingText at he
  rw [a2, b2] at he
  have key : ∀ L : List ListLine, (L.flatMap fun x => x.text ++ ['\n']) =
      (L.map ListLine.text).flatMap fun x => x ++ ['\n'] := by
    intro L
    rw [List.flatMap_map]
  rw [key, key] at he
  have e := text_lines_inj (by
      intro x hx
      obtain ⟨y, hy, rfl⟩ := List.mem_map.1 hx
      exact plainly_newline (a1 y hy)) (by
      intro x hx
      obtain ⟨y, hy, rfl⟩ := List.mem_map.1 hx
      exact plainly_newline (b1 y hy)) he
  have e2 := map_inj_on (fun a b => plainly_text_inj) a1 b1 e
  rw [← C104_rows (rows [] [] [] l), e2, C104_rows]

/-- Concrete case of the hypotheses: the listing of the file of `symFs_build`. -/
example : (match listSymbols asciiUpper symFs 10 [py "T.arg"] with
    | .ok l => decide (listingText l =
        py "A\n  Segment: T\n    Subsegment: 1\n" ++
        py "        <simple>    T:2                                                 A          TX\n" ++
        py "    Subsegment: 2\n" ++
        py "        <complex> S T:6                                                 S,A        ASSIGN\n")
    | .error _ => false) = true ∧
    PlainFiles [py "T.arg"] ∧ ∀ f ∈ [py "T.arg"], ' ' ∉ f ∧ '\n' ∉ f := by
  refine ⟨by decide +kernel, ?_, by decide⟩
  rw [plainFiles_iff]
  intro f hf
  rw [List.mem_singleton] at hf
  subst hf
  exact ⟨by decide, by decide⟩

/-- The files are known by their names up to the first dot only: different files can have the same
listing. -/
example : let fs : FileSystem := fun _ => some (py "        B          TN\n")
    listSymbols asciiUpper fs 10 [py "A.arg"] = listSymbols asciiUpper fs 10 [py "A.old"] := by
  decide +kernel

end H800
