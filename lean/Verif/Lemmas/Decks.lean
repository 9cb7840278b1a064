import Mathlib.Logic.Relation
import Verif.Lemmas.Cards

/-! Decks: reading files with includes, and decks of lines. -/

namespace H800

open Spec

/-- The card of a source line. -/
def mkCard (cls : CardClass) (width : Int) (fields : List Int) (s : Src) : Py PunchCard :=
  cls s.text width fields (some s.file) s.num

theorem mapM_cons_ok {α β : Type} {f : α → Py β} {x : α} {l : List α} {r : List β} :
    (x :: l).mapM f = .ok r ↔ ∃ y ys, f x = .ok y ∧ l.mapM f = .ok ys ∧ r = y :: ys := by
  rw [List.mapM_cons]
  cases hx : f x with
  | error e => simp [py_bind_error]
  | ok y =>
    simp only [py_bind_ok]
    cases hl : l.mapM f with
    | error e => simp [py_bind_error]
    | ok ys =>
      simp only [py_bind_ok, py_pure, Except.ok.injEq]
      constructor
      · rintro rfl; exact ⟨y, ys, rfl, rfl, rfl⟩
      · rintro ⟨_, _, rfl, rfl, rfl⟩; rfl

theorem mapM_nil_ok {α β : Type} {f : α → Py β} {r : List β} :
    ([] : List α).mapM f = .ok r ↔ r = [] := by
  rw [List.mapM_nil]
  simp only [py_pure, Except.ok.injEq]
  exact eq_comm

theorem mapM_append_ok {α β : Type} {f : α → Py β} {l l' : List α} {r : List β} :
    (l ++ l').mapM f = .ok r ↔ ∃ a b, l.mapM f = .ok a ∧ l'.mapM f = .ok b ∧ r = a ++ b := by
  induction l generalizing r with
  | nil =>
    simp only [List.nil_append, mapM_nil_ok]
    constructor
    · intro h; exact ⟨[], r, rfl, h, rfl⟩
    · rintro ⟨_, _, rfl, h, rfl⟩; exact h
  | cons x l ih =>
    simp only [List.cons_append, mapM_cons_ok, ih]
    constructor
    · rintro ⟨y, _, hy, ⟨a, b, ha, hb, rfl⟩, rfl⟩
      exact ⟨y :: a, b, ⟨y, a, hy, ha, rfl⟩, hb, rfl⟩
    · rintro ⟨_, b, ⟨y, a, hy, ha, rfl⟩, hb, rfl⟩
      exact ⟨y, a ++ b, hy, ⟨a, b, ha, hb, rfl⟩, rfl⟩

theorem mapM_ok_mem {α β : Type} {f : α → Py β} {l : List α} {r : List β} (h : l.mapM f = .ok r)
    {y : β} (hy : y ∈ r) : ∃ x ∈ l, f x = .ok y := by
  induction l generalizing r with
  | nil => rw [mapM_nil_ok.1 h] at hy; cases hy
  | cons x l ih =>
    obtain ⟨z, zs, hz, hl, rfl⟩ := mapM_cons_ok.1 h
    rcases List.mem_cons.1 hy with rfl | hy
    · exact ⟨x, List.mem_cons_self, hz⟩
    · obtain ⟨w, hw, e⟩ := ih hl hy
      exact ⟨w, List.mem_cons_of_mem _ hw, e⟩

section
variable {fs : FileSystem} {cls : CardClass} {width : Int} {fields : List Int}

theorem startsWith_cons {l : Str} {c : Char} : startsWith l c = true ↔ ∃ t, l = c :: t := by
  rw [startsWith_iff]
  cases l with
  | nil => simp
  | cons x t =>
    simp only [List.head?_cons, Option.some.injEq, List.cons.injEq]
    constructor
    · rintro rfl; exact ⟨t, rfl, rfl⟩
    · rintro ⟨_, rfl, -⟩; rfl

/-- One step of the loop, by kind of line. -/
theorem readLoop_comment (r : Bool) (read : Str → Py (List PunchCard)) (file : Str) (i : Nat)
    (l : Str) (ls : List Str) :
    Deck.readLoop fs cls width fields r read file i (('#' :: l) :: ls) =
      Deck.readLoop fs cls width fields r read file (i + 1) ls := by
  rw [Deck.readLoop]
  simp [startsWith]

theorem readLoop_include (read : Str → Py (List PunchCard)) (file : Str) (i : Nat)
    (l : Str) (ls : List Str) :
    Deck.readLoop fs cls width fields true read file i (('$' :: l) :: ls) =
      (do
        let inc ← firstWord l
        if (fs inc).isNone then .error .systemExit
        else do
          let icards ← read inc
          return icards ++ (← Deck.readLoop fs cls width fields true read file (i + 1) ls)) := by
  rw [Deck.readLoop]
  simp [startsWith]

theorem readLoop_plain (r : Bool) (read : Str → Py (List PunchCard)) (file : Str) (i : Nat)
    (l : Str) (ls : List Str) (h1 : l.head? ≠ some '#') (h2 : l.head? ≠ some '$') :
    Deck.readLoop fs cls width fields r read file i (l :: ls) =
      (do
        let c ← cls l width fields (some file) (i + 1)
        return c :: (← Deck.readLoop fs cls width fields r read file (i + 1) ls)) := by
  rw [Deck.readLoop]
  have e1 : startsWith l '#' = false := by
    rw [Bool.eq_false_iff]; exact fun e => h1 (startsWith_iff.1 e)
  have e2 : startsWith l '$' = false := by
    rw [Bool.eq_false_iff]; exact fun e => h2 (startsWith_iff.1 e)
  simp [e1, e2]

/-- The three kinds of line. -/
theorem line_cases (l : Str) : (∃ t, l = '#' :: t) ∨ (∃ t, l = '$' :: t) ∨
    (l.head? ≠ some '#' ∧ l.head? ≠ some '$') := by
  by_cases h1 : l.head? = some '#'
  · exact Or.inl (startsWith_cons.1 (startsWith_iff.2 h1))
  · by_cases h2 : l.head? = some '$'
    · exact Or.inr (Or.inl (startsWith_cons.1 (startsWith_iff.2 h2)))
    · exact Or.inr (Or.inr ⟨h1, h2⟩)

theorem readLoop_sound {read : Str → Py (List PunchCard)}
    (hread : ∀ name cs, read name = .ok cs →
      ∃ out, Expands fs name out ∧ out.mapM (mkCard cls width fields) = .ok cs)
    {file : Str} {i : Nat} {ls : List Str} {cards : List PunchCard}
    (h : Deck.readLoop fs cls width fields true read file i ls = .ok cards) :
    ∃ out, Expand fs file (i + 1) ls out ∧ out.mapM (mkCard cls width fields) = .ok cards := by
  induction ls generalizing i cards with
  | nil =>
    rw [Deck.readLoop] at h
    cases h
    exact ⟨[], .nil _ _, rfl⟩
  | cons l ls ih =>
    rcases line_cases l with ⟨t, rfl⟩ | ⟨t, rfl⟩ | ⟨h1, h2⟩
    · rw [readLoop_comment] at h
      obtain ⟨out, ho, hm⟩ := ih h
      exact ⟨out, .comment ho, hm⟩
    · rw [readLoop_include] at h
      cases hw : firstWord t with
      | error e => rw [hw] at h; cases h
      | ok inc =>
        rw [hw] at h
        simp only [py_bind_ok] at h
        cases hf : fs inc with
        | none => rw [hf] at h; cases h
        | some text =>
          rw [hf] at h
          simp only [Option.isNone_some, Bool.false_eq_true, if_false] at h
          cases hr : read inc with
          | error e => rw [hr] at h; cases h
          | ok ic =>
            rw [hr] at h
            simp only [py_bind_ok] at h
            cases hrest : Deck.readLoop fs cls width fields true read file (i + 1) ls with
            | error e => rw [hrest] at h; cases h
            | ok rc =>
              rw [hrest] at h
              simp only [py_bind_ok, py_pure, Except.ok.injEq] at h
              subst h
              obtain ⟨o1, ⟨text', ht', e1⟩, m1⟩ := hread _ _ hr
              obtain ⟨o2, e2, m2⟩ := ih hrest
              rw [hf] at ht'
              cases ht'
              exact ⟨o1 ++ o2, .incl (firstWord_ok.1 hw) hf e1 e2,
                mapM_append_ok.2 ⟨_, _, m1, m2, rfl⟩⟩
    · rw [readLoop_plain _ _ _ _ _ _ h1 h2] at h
      cases hc : cls l width fields (some file) (i + 1) with
      | error e => rw [hc] at h; cases h
      | ok c =>
        rw [hc] at h
        simp only [py_bind_ok] at h
        cases hrest : Deck.readLoop fs cls width fields true read file (i + 1) ls with
        | error e => rw [hrest] at h; cases h
        | ok rc =>
          rw [hrest] at h
          simp only [py_bind_ok, py_pure, Except.ok.injEq] at h
          subst h
          obtain ⟨o, e, m⟩ := ih hrest
          refine ⟨_, .plain h1 h2 e, mapM_cons_ok.2 ⟨_, _, ?_, m, rfl⟩⟩
          unfold mkCard
          simpa using hc

theorem readSource_sound {fuel : Nat} {file : Str} {cards : List PunchCard}
    (h : Deck.readSource fs cls width fields fuel true file = .ok cards) :
    ∃ out, Expands fs file out ∧ out.mapM (mkCard cls width fields) = .ok cards := by
  induction fuel generalizing file cards with
  | zero => cases h
  | succ fuel ih =>
    rw [Deck.readSource] at h
    cases hf : fs file with
    | none => rw [hf] at h; cases h
    | some text =>
      rw [hf] at h
      obtain ⟨out, e, m⟩ := readLoop_sound (fun _ _ => ih) h
      exact ⟨out, ⟨text, hf, e⟩, m⟩

theorem readLoop_complete {file : Str} {i : Nat} {ls : List Str} {out : List Src}
    (h : Expand fs file i ls out) :
    ∀ (j : Nat) (cards : List PunchCard), i = j + 1 →
      out.mapM (mkCard cls width fields) = .ok cards →
      ∃ n, ∀ m, n ≤ m → Deck.readLoop fs cls width fields true
        (Deck.readSource fs cls width fields m true) file j ls = .ok cards := by
  induction h with
  | nil =>
    intro j cards _ hm
    refine ⟨0, fun m _ => ?_⟩
    rw [Deck.readLoop, mapM_nil_ok.1 hm]
  | comment _ ih =>
    intro j cards hj hm
    obtain ⟨n, hn⟩ := ih (j + 1) cards (by omega) hm
    refine ⟨n, fun m h => ?_⟩
    rw [readLoop_comment, hn m h]
  | incl hw hf _ _ ih1 ih2 =>
    intro j cards hj hm
    obtain ⟨a, b, ha, hb, rfl⟩ := mapM_append_ok.1 hm
    obtain ⟨n1, h1⟩ := ih1 0 a rfl ha
    obtain ⟨n2, h2⟩ := ih2 (j + 1) b (by omega) hb
    refine ⟨max (n1 + 1) n2, fun m h => ?_⟩
    rw [readLoop_include, firstWord_ok.2 hw]
    simp only [py_bind_ok, hf, Option.isNone_some, Bool.false_eq_true, if_false]
    obtain ⟨k, rfl⟩ : ∃ k, m = k + 1 := ⟨m - 1, by omega⟩
    rw [h2 (k + 1) (by omega), Deck.readSource, hf]
    simp only
    rw [h1 k (by omega)]
    rfl
  | plain hp1 hp2 _ ih =>
    intro j cards hj hm
    obtain ⟨y, ys, hy, hys, rfl⟩ := mapM_cons_ok.1 hm
    obtain ⟨n, hn⟩ := ih (j + 1) ys (by omega) hys
    refine ⟨n, fun m h => ?_⟩
    rw [readLoop_plain _ _ _ _ _ _ hp1 hp2, hn m h]
    unfold mkCard at hy
    rw [hj] at hy
    simp only [Nat.cast_add, Nat.cast_one] at hy
    rw [hy]
    rfl

theorem readSource_complete {file : Str} {out : List Src} {cards : List PunchCard}
    (h : Expands fs file out) (hm : out.mapM (mkCard cls width fields) = .ok cards) :
    ∃ n, ∀ m, n ≤ m → Deck.readSource fs cls width fields m true file = .ok cards := by
  obtain ⟨text, hf, he⟩ := h
  obtain ⟨n, hn⟩ := readLoop_complete he 0 cards rfl hm
  refine ⟨n + 1, fun m h => ?_⟩
  obtain ⟨k, rfl⟩ : ∃ k, m = k + 1 := ⟨m - 1, by omega⟩
  rw [Deck.readSource, hf]
  exact hn k (by omega)

/-- A file that is read successfully had all its includes read, one level deeper. -/
theorem readLoop_includes {read : Str → Py (List PunchCard)} {file : Str} {i : Nat}
    {ls : List Str} {cards : List PunchCard}
    (h : Deck.readLoop fs cls width fields true read file i ls = .ok cards) {t name : Str}
    (ht : '$' :: t ∈ ls) (hw : Word1 t name) : ∃ cs, read name = .ok cs := by
  induction ls generalizing i cards with
  | nil => cases ht
  | cons l ls ih =>
    rcases line_cases l with ⟨u, rfl⟩ | ⟨u, rfl⟩ | ⟨h1, h2⟩
    · rw [readLoop_comment] at h
      rcases List.mem_cons.1 ht with e | ht
      · cases e
      · exact ih h ht
    · rw [readLoop_include] at h
      cases hw' : firstWord u with
      | error e => rw [hw'] at h; cases h
      | ok inc =>
        rw [hw'] at h
        simp only [py_bind_ok] at h
        split at h
        · cases h
        · cases hr : read inc with
          | error e => rw [hr] at h; cases h
          | ok ic =>
            rw [hr] at h
            simp only [py_bind_ok] at h
            rcases List.mem_cons.1 ht with e | ht
            · cases e
              rw [firstWord_ok.2 hw] at hw'
              cases hw'
              exact ⟨_, hr⟩
            · cases hrest : Deck.readLoop fs cls width fields true read file (i + 1) ls with
              | error e => rw [hrest] at h; cases h
              | ok rc => exact ih hrest ht
    · rw [readLoop_plain _ _ _ _ _ _ h1 h2] at h
      cases hc : cls l width fields (some file) (i + 1) with
      | error e => rw [hc] at h; cases h
      | ok c =>
        rw [hc] at h
        simp only [py_bind_ok] at h
        rcases List.mem_cons.1 ht with e | ht
        · rw [← e] at h2; exact absurd rfl h2
        · cases hrest : Deck.readLoop fs cls width fields true read file (i + 1) ls with
          | error e => rw [hrest] at h; cases h
          | ok rc => exact ih hrest ht

theorem readSource_includes {fuel : Nat} {file name : Str} {cards : List PunchCard}
    (h : Deck.readSource fs cls width fields fuel true file = .ok cards)
    (hi : Includes fs file name) :
    ∃ k cs, k < fuel ∧ Deck.readSource fs cls width fields k true name = .ok cs := by
  cases fuel with
  | zero => cases h
  | succ fuel =>
    obtain ⟨text, hf, t, ht, hw⟩ := hi
    rw [Deck.readSource, hf] at h
    obtain ⟨cs, hcs⟩ := readLoop_includes h ht hw
    exact ⟨fuel, cs, Nat.lt_succ_self _, hcs⟩

theorem readSource_trans {file name : Str} (hi : Relation.TransGen (Includes fs) file name) :
    ∀ {fuel : Nat} {cards : List PunchCard},
      Deck.readSource fs cls width fields fuel true file = .ok cards →
      ∃ k cs, k < fuel ∧ Deck.readSource fs cls width fields k true name = .ok cs := by
  induction hi with
  | single h => exact fun hr => readSource_includes hr h
  | tail _ h ih =>
    intro fuel cards hr
    obtain ⟨k, cs, hk, hcs⟩ := ih hr
    obtain ⟨k', cs', hk', hcs'⟩ := readSource_includes hcs h
    exact ⟨k', cs', by omega, hcs'⟩

/-- A file in a cycle is never read successfully. -/
theorem readSource_cycle {file : Str} (hi : Relation.TransGen (Includes fs) file file)
    (fuel : Nat) (cards : List PunchCard) :
    Deck.readSource fs cls width fields fuel true file ≠ .ok cards := by
  induction fuel using Nat.strong_induction_on generalizing cards with
  | _ fuel ih =>
    intro h
    obtain ⟨k, cs, hk, hcs⟩ := readSource_trans hi h
    exact ih k hk cs hcs

/-- Where a card constructor never fails on lines that are not comments. -/
def Total (cls : CardClass) (width : Int) (fields : List Int) : Prop :=
  ∀ l fn n, l.head? ≠ some '#' → ∃ c, cls l width fields fn n = .ok c

theorem readLoop_error (ht : Total cls width fields) {read : Str → Py (List PunchCard)}
    {file : Str} {i : Nat} {ls : List Str} {e : PyErr}
    (h : Deck.readLoop fs cls width fields true read file i ls = .error e) :
    (e = .systemExit ∧ ∃ t name, '$' :: t ∈ ls ∧ Word1 t name ∧ fs name = none) ∨
    (e = .indexError ∧ ∃ t, '$' :: t ∈ ls ∧ Blank t) ∨
    (∃ t name, '$' :: t ∈ ls ∧ Word1 t name ∧ read name = .error e) := by
  induction ls generalizing i with
  | nil => rw [Deck.readLoop] at h; cases h
  | cons l ls ih =>
    have lift : ((e = .systemExit ∧ ∃ t name, '$' :: t ∈ ls ∧ Word1 t name ∧ fs name = none) ∨
        (e = .indexError ∧ ∃ t, '$' :: t ∈ ls ∧ Blank t) ∨
        (∃ t name, '$' :: t ∈ ls ∧ Word1 t name ∧ read name = .error e)) →
        ((e = .systemExit ∧ ∃ t name, '$' :: t ∈ l :: ls ∧ Word1 t name ∧ fs name = none) ∨
        (e = .indexError ∧ ∃ t, '$' :: t ∈ l :: ls ∧ Blank t) ∨
        (∃ t name, '$' :: t ∈ l :: ls ∧ Word1 t name ∧ read name = .error e)) := by
      rintro (⟨h0, t, n, h1, h2⟩ | ⟨h0, t, h1, h2⟩ | ⟨t, n, h1, h2⟩)
      · exact Or.inl ⟨h0, t, n, List.mem_cons_of_mem _ h1, h2⟩
      · exact Or.inr (Or.inl ⟨h0, t, List.mem_cons_of_mem _ h1, h2⟩)
      · exact Or.inr (Or.inr ⟨t, n, List.mem_cons_of_mem _ h1, h2⟩)
    rcases line_cases l with ⟨u, rfl⟩ | ⟨u, rfl⟩ | ⟨h1, h2⟩
    · rw [readLoop_comment] at h
      exact lift (ih h)
    · rw [readLoop_include] at h
      cases hw' : firstWord u with
      | error e' =>
        rw [hw'] at h
        cases h
        obtain ⟨rfl, hb⟩ := firstWord_error hw'
        exact Or.inr (Or.inl ⟨rfl, u, List.mem_cons_self, hb⟩)
      | ok inc =>
        rw [hw'] at h
        simp only [py_bind_ok] at h
        split at h
        · rename_i hn
          cases h
          exact Or.inl ⟨rfl, u, inc, List.mem_cons_self, firstWord_ok.1 hw', by simpa using hn⟩
        · cases hr : read inc with
          | error e' =>
            rw [hr] at h
            cases h
            exact Or.inr (Or.inr ⟨u, inc, List.mem_cons_self, firstWord_ok.1 hw', hr⟩)
          | ok ic =>
            rw [hr] at h
            simp only [py_bind_ok] at h
            cases hrest : Deck.readLoop fs cls width fields true read file (i + 1) ls with
            | error e' =>
              rw [hrest] at h
              cases h
              exact lift (ih hrest)
            | ok rc => rw [hrest] at h; cases h
    · rw [readLoop_plain _ _ _ _ _ _ h1 h2] at h
      obtain ⟨c, hc⟩ := ht l (some file) (i + 1) h1
      rw [hc] at h
      simp only [py_bind_ok] at h
      cases hrest : Deck.readLoop fs cls width fields true read file (i + 1) ls with
      | error e' =>
        rw [hrest] at h
        cases h
        exact lift (ih hrest)
      | ok rc => rw [hrest] at h; cases h

/-- The three ways reading a file can fail. -/
theorem readSource_error (ht : Total cls width fields) {fuel : Nat} {file : Str} {e : PyErr}
    (h : Deck.readSource fs cls width fields fuel true file = .error e) :
    e = .recursionError ∨
    (e = .systemExit ∧ ∃ g, Relation.ReflTransGen (Includes fs) file g ∧ fs g = none) ∨
    (e = .indexError ∧ ∃ g text t, Relation.ReflTransGen (Includes fs) file g ∧ fs g = some text ∧
      '$' :: t ∈ readlines text ∧ Blank t) := by
  induction fuel generalizing file with
  | zero => cases h; exact Or.inl rfl
  | succ fuel ih =>
    rw [Deck.readSource] at h
    cases hf : fs file with
    | none =>
      rw [hf] at h
      cases h
      exact Or.inr (Or.inl ⟨rfl, file, .refl, hf⟩)
    | some text =>
      rw [hf] at h
      rcases readLoop_error ht h with ⟨h0, t, n, h1, h2, h3⟩ | ⟨h0, t, h1, h2⟩ | ⟨t, n, h1, h2, h3⟩
      · exact Or.inr (Or.inl ⟨h0, n, .single ⟨text, hf, t, h1, h2⟩, h3⟩)
      · exact Or.inr (Or.inr ⟨h0, file, text, t, .refl, hf, h1, h2⟩)
      · have hi : Includes fs file n := ⟨text, hf, t, h1, h2⟩
        rcases ih h3 with h | ⟨h0, g, hg, hn⟩ | ⟨h0, g, text', t', hg, hr⟩
        · exact Or.inl h
        · exact Or.inr (Or.inl ⟨h0, g, .head hi hg, hn⟩)
        · exact Or.inr (Or.inr ⟨h0, g, text', t', .head hi hg, hr⟩)

theorem readLoop_mono {read read' : Str → Py (List PunchCard)}
    (hr : ∀ name, read name ≠ .error .recursionError → read' name = read name)
    {file : Str} {i : Nat} {ls : List Str}
    (h : Deck.readLoop fs cls width fields true read file i ls ≠ .error .recursionError) :
    Deck.readLoop fs cls width fields true read' file i ls =
      Deck.readLoop fs cls width fields true read file i ls := by
  induction ls generalizing i with
  | nil => rw [Deck.readLoop, Deck.readLoop]
  | cons l ls ih =>
    rcases line_cases l with ⟨u, rfl⟩ | ⟨u, rfl⟩ | ⟨h1, h2⟩
    · rw [readLoop_comment] at h ⊢
      rw [readLoop_comment, ih h]
    · rw [readLoop_include] at h ⊢
      rw [readLoop_include]
      cases hw' : firstWord u with
      | error e' => rfl
      | ok inc =>
        rw [hw'] at h
        simp only [py_bind_ok] at h ⊢
        split
        · rfl
        · rename_i hn
          rw [if_neg hn] at h
          have h1 : read inc ≠ .error .recursionError := by
            intro e; rw [e] at h; exact h rfl
          rw [hr inc h1]
          cases hri : read inc with
          | error e' => rfl
          | ok ic =>
            rw [hri] at h
            simp only [py_bind_ok] at h ⊢
            rw [ih]
            intro e; rw [e] at h; exact h rfl
    · rw [readLoop_plain _ _ _ _ _ _ h1 h2] at h ⊢
      rw [readLoop_plain _ _ _ _ _ _ h1 h2]
      cases hc : cls l width fields (some file) (i + 1) with
      | error e' => rfl
      | ok c =>
        rw [hc] at h
        simp only [py_bind_ok] at h ⊢
        rw [ih]
        intro e; rw [e] at h; exact h rfl

/-- A larger recursion limit changes nothing unless the limit was hit. -/
theorem readSource_mono {n m : Nat} (hnm : n ≤ m) {file : Str}
    (h : Deck.readSource fs cls width fields n true file ≠ .error .recursionError) :
    Deck.readSource fs cls width fields m true file =
      Deck.readSource fs cls width fields n true file := by
  induction n generalizing m file with
  | zero => exact absurd rfl h
  | succ n ih =>
    obtain ⟨k, rfl⟩ : ∃ k, m = k + 1 := ⟨m - 1, by omega⟩
    rw [Deck.readSource] at h ⊢
    rw [Deck.readSource]
    cases hf : fs file with
    | none => rfl
    | some text =>
      rw [hf] at h
      exact readLoop_mono (fun name hn => ih (by omega) hn) h

/-- Every source line of an expansion is a code line of its file. -/
theorem expand_src {file : Str} {i : Nat} {ls : List Str} {out : List Src}
    (h : Expand fs file i ls out) :
    ∀ text, fs file = some text → 1 ≤ i → ls = (readlines text).drop (i - 1) →
      ∀ s ∈ out, ∃ text', fs s.file = some text' ∧ 1 ≤ s.num ∧
        (readlines text')[s.num - 1]? = some s.text ∧ s.text.head? ≠ some '#' ∧
        s.text.head? ≠ some '$' := by
  have tl : ∀ {text : Str} {i : Nat} {l : Str} {ls : List Str}, 1 ≤ i →
      l :: ls = (readlines text).drop (i - 1) → ls = (readlines text).drop (i + 1 - 1) ∧
        (readlines text)[i - 1]? = some l := by
    intro text i l ls hi e
    have e1 := congrArg List.tail e
    have e2 := congrArg List.head? e
    rw [List.tail_drop] at e1
    rw [List.head?_drop] at e2
    have : i - 1 + 1 = i + 1 - 1 := by omega
    rw [this] at e1
    exact ⟨e1, e2.symm⟩
  induction h with
  | nil => intro _ _ _ _ s hs; cases hs
  | comment _ ih =>
    intro text hf hi e
    exact ih text hf (by omega) (tl hi e).1
  | incl hw hf' _ _ ih1 ih2 =>
    intro text hf hi e s hs
    rcases List.mem_append.1 hs with hs | hs
    · exact ih1 _ hf' (le_refl 1) rfl s hs
    · exact ih2 text hf (by omega) (tl hi e).1 s hs
  | plain h1 h2 _ ih =>
    intro text hf hi e s hs
    rcases List.mem_cons.1 hs with rfl | hs
    · exact ⟨text, hf, hi, (tl hi e).2, h1, h2⟩
    · exact ih text hf (by omega) (tl hi e).1 s hs

theorem word1_unique {s w w' : Str} (h : Word1 s w) (h' : Word1 s w') : w = w' := by
  have := (firstWord_ok.2 h).symm.trans (firstWord_ok.2 h')
  cases this; rfl

theorem expand_unique {file : Str} {i : Nat} {ls : List Str} {out : List Src}
    (h : Expand fs file i ls out) : ∀ out', Expand fs file i ls out' → out = out' := by
  induction h with
  | nil => intro o h; cases h; rfl
  | comment _ ih =>
    intro o h
    cases h with
    | comment h => exact ih _ h
    | plain h1 => exact absurd rfl h1
  | incl hw hf _ _ ih1 ih2 =>
    intro o h
    cases h with
    | incl hw' hf' h1 h2 =>
      cases word1_unique hw hw'
      rw [hf] at hf'
      cases hf'
      rw [ih1 _ h1, ih2 _ h2]
    | plain _ h2 => exact absurd rfl h2
  | plain h1 h2 _ ih =>
    intro o h
    cases h with
    | comment h => exact absurd rfl h1
    | incl => exact absurd rfl h2
    | plain _ _ h => rw [ih _ h]

theorem expands_src {file : Str} {out : List Src} (h : Expands fs file out) :
    ∀ s ∈ out, ∃ text', fs s.file = some text' ∧ 1 ≤ s.num ∧
        (readlines text')[s.num - 1]? = some s.text ∧ s.text.head? ≠ some '#' ∧
        s.text.head? ≠ some '$' := by
  obtain ⟨text, hf, he⟩ := h
  exact expand_src he text hf (le_refl 1) rfl

/-- The lines of a list that make cards, with their positions. -/
theorem fromLines_eq (file : Option Str) (i : Nat) (lines : List Str) :
    Deck.fromLines cls width fields file i lines =
      ((lines.zipIdx (i + 1)).filter (fun p => p.1.head? ≠ some '#')).mapM
        (fun p => cls p.1 width fields file p.2) := by
  induction lines generalizing i with
  | nil => rfl
  | cons l ls ih =>
    rw [Deck.fromLines, List.zipIdx_cons]
    by_cases h : l.head? = some '#'
    · rw [if_pos (startsWith_iff.2 h), List.filter_cons_of_neg (by simpa using h)]
      exact ih (i + 1)
    · rw [if_neg (fun e => h (startsWith_iff.1 e)), List.filter_cons_of_pos (by simpa using h),
        List.mapM_cons, ih (i + 1)]
      simp

end

theorem total_argus : Total argusClass DEFAULT_WIDTH DEFAULT_FIELDS :=
  fun l fn n h => ⟨_, argus_eq l h fn n⟩

theorem total_punch : Total punchClass DEFAULT_WIDTH DEFAULT_FIELDS :=
  fun l fn n h => ⟨_, punch_eq l h fn n⟩

/-- What both card classes keep of their arguments. -/
theorem card_keeps {cls : CardClass} (hcls : cls = argusClass ∨ cls = punchClass) {l : Str}
    {fn : Option Str} {n : Int} {c : PunchCard} (h : l.head? ≠ some '#')
    (hc : cls l DEFAULT_WIDTH DEFAULT_FIELDS fn n = .ok c) :
    c.line = l.filter (· ≠ '\n') ∧ c.filename = fn ∧ c.linenum = n ∧ ∃ b, c.body = some b := by
  rcases hcls with rfl | rfl
  · rw [argus_eq l h] at hc; cases hc; exact ⟨rfl, rfl, rfl, _, rfl⟩
  · rw [punch_eq l h] at hc; cases hc; exact ⟨rfl, rfl, rfl, _, rfl⟩

theorem total_of {cls : CardClass} (hcls : cls = argusClass ∨ cls = punchClass) :
    Total cls DEFAULT_WIDTH DEFAULT_FIELDS := by
  rcases hcls with rfl | rfl
  · exact total_argus
  · exact total_punch

theorem collect_ok {lines : List Str} {cards : List PunchCard}
    (h : ∀ c ∈ cards, ∃ b, c.body = some b) :
    ∃ bs, cards.mapM PunchCard.getBody = .ok bs ∧ Deck.collect lines cards = .ok
      ⟨lines, cards, bs.map (·.fields), bs.map (·.stripped), bs.map (·.record)⟩ := by
  have : ∃ bs, cards.mapM PunchCard.getBody = .ok bs := by
    induction cards with
    | nil => exact ⟨[], rfl⟩
    | cons c cs ih =>
      obtain ⟨bs, hbs⟩ := ih fun x hx => h x (List.mem_cons_of_mem _ hx)
      obtain ⟨b, hb⟩ := h c List.mem_cons_self
      refine ⟨b :: bs, mapM_cons_ok.2 ⟨b, bs, ?_, hbs, rfl⟩⟩
      unfold PunchCard.getBody
      rw [hb]
  obtain ⟨bs, hbs⟩ := this
  refine ⟨bs, hbs, ?_⟩
  unfold Deck.collect
  rw [hbs]
  rfl

theorem collect_cards {lines : List Str} {cards : List PunchCard} {d : Deck}
    (h : Deck.collect lines cards = .ok d) :
    d.lines = lines ∧ d.cards = cards ∧ ∃ bs, cards.mapM PunchCard.getBody = .ok bs ∧
      d.fields = bs.map (·.fields) ∧ d.strippedFields = bs.map (·.stripped) ∧
      d.records = bs.map (·.record) := by
  unfold Deck.collect at h
  cases hb : cards.mapM PunchCard.getBody with
  | error e => rw [hb] at h; cases h
  | ok bs =>
    rw [hb] at h
    cases h
    exact ⟨rfl, rfl, bs, rfl, rfl, rfl, rfl⟩

/-- All source lines make cards. -/
theorem srcs_total {cls : CardClass} {width : Int} {fields : List Int} (ht : Total cls width fields)
    {out : List Src} (h : ∀ s ∈ out, s.text.head? ≠ some '#') :
    ∃ cards, out.mapM (mkCard cls width fields) = .ok cards := by
  induction out with
  | nil => exact ⟨[], rfl⟩
  | cons s out ih =>
    obtain ⟨cs, hcs⟩ := ih fun x hx => h x (List.mem_cons_of_mem _ hx)
    obtain ⟨c, hc⟩ := ht s.text (some s.file) s.num (h s List.mem_cons_self)
    exact ⟨c :: cs, mapM_cons_ok.2 ⟨c, cs, hc, hcs, rfl⟩⟩

theorem splitLines_ne (s : Str) : splitLines s ≠ [] := by
  cases s with
  | nil => simp [splitLines]
  | cons c s =>
    rw [splitLines]
    split
    · simp
    · split <;> simp

theorem splitLines_line {l : Str} (h : '\n' ∉ l) : splitLines l = [l] := by
  induction l with
  | nil => rfl
  | cons c l ih =>
    simp only [List.mem_cons, not_or] at h
    rw [splitLines, if_neg (fun e => h.1 e.symm), ih h.2]

theorem splitLines_append {l s : Str} (h : '\n' ∉ l) :
    splitLines (l ++ '\n' :: s) = l :: splitLines s := by
  induction l with
  | nil => simp [splitLines]
  | cons c l ih =>
    simp only [List.mem_cons, not_or] at h
    rw [List.cons_append, splitLines, if_neg (fun e => h.1 e.symm), ih h.2]

theorem splitLines_join {ls : List Str} (h : ∀ l ∈ ls, '\n' ∉ l) (hne : ls ≠ []) :
    splitLines (joinWith '\n' ls) = ls := by
  induction ls with
  | nil => exact absurd rfl hne
  | cons l ls ih =>
    cases ls with
    | nil => rw [joinWith, splitLines_line (h l List.mem_cons_self)]
    | cons m ls =>
      rw [joinWith, splitLines_append (h l List.mem_cons_self),
        ih (fun x hx => h x (List.mem_cons_of_mem _ hx)) (by simp)]

end H800
