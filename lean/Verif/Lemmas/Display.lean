import Verif.Spec.Display
import Verif.Lemmas.Repr
import Verif.Lemmas.Messages
import Verif.Props.GenArgs
import Verif.Props.SymOut

/-!
Lemmas about how Python writes values.
-/

namespace H800

open Spec

/-! ### Numerals -/

theorem hex_lt {t : Str} {n : Nat} (h : Hex t n) : n < 16 ^ t.length := by
  induction h with
  | nil => simp
  | @snoc t v d c _ hd ih =>
    have h1 : d < 16 := by
      obtain ⟨h, -⟩ := List.getElem?_eq_some_iff.1 hd; simpa using h
    rw [List.length_append, List.length_singleton, pow_succ]
    omega

theorem hex_inj {t : Str} {n : Nat} (h : Hex t n) : ∀ {t' : Str}, Hex t' n →
    t.length = t'.length → t = t' := by
  induction h with
  | nil => exact fun _ hl => (List.eq_nil_of_length_eq_zero hl.symm).symm
  | @snoc t v d c ht hd ih =>
    intro t' h' hl
    generalize hm : 16 * v + d = m at h'
    cases h' with
    | nil => simp at hl
    | @snoc t' v' d' c' ht' hd' =>
      have h1 : d < 16 := by
        obtain ⟨h, -⟩ := List.getElem?_eq_some_iff.1 hd; simpa using h
      have h2 : d' < 16 := by
        obtain ⟨h, -⟩ := List.getElem?_eq_some_iff.1 hd'; simpa using h
      obtain rfl : v = v' := by omega
      obtain rfl : d = d' := by omega
      rw [ih ht' (by simpa using hl)]
      rw [hd] at hd'
      cases hd'
      rfl

theorem hexDigits_hex (l : List Nat) (h : ∀ d ∈ l, d < 16) : Hex (l.map hexChar) (ofDigits 16 l) := by
  induction l using List.reverseRecOn with
  | nil => exact .nil
  | append_singleton l d ih =>
    have := Hex.snoc (ih fun d hd => h d (List.mem_append_left _ hd)) (hexChar_spec d (h d (by simp)))
    rw [List.map_append]
    have e : ofDigits 16 (l ++ [d]) = 16 * ofDigits 16 l + d := by
      simp [ofDigits, mul_comm]
    rw [e]
    exact this

theorem shortest_inj {n : Int} {s t : Str} (hs : Shortest n s) (ht : Shortest n t) : s = t := by
  have hl : s.length = t.length :=
    le_antisymm (hs.2.2 t ht.1 (by omega)) (ht.2.2 s hs.1 (by omega))
  rcases hs.1 with ⟨h0, h⟩ | ⟨h0, u, rfl, h⟩ <;> rcases ht.1 with ⟨g0, g⟩ | ⟨g0, u', rfl, g⟩
  · exact decimal_inj h g hl
  · omega
  · omega
  · rw [decimal_inj h g (by simpa using hl)]

/-! ### Strings -/

theorem reprChar_text (printable : Char → Bool) (q c : Char) :
    CharText printable q c (reprChar printable q c) := by
  have h8 := char_lt c
  have e32 : ' '.toNat = 32 := rfl
  have e126 : '~'.toNat = 126 := rfl
  unfold reprChar
  split
  · exact .escaped ‹_›
  rename_i h0
  split
  · rename_i h; subst h; exact .letter (by simp)
  split
  · rename_i h; subst h; exact .letter (by simp)
  split
  · rename_i h; subst h; exact .letter (by simp)
  rename_i ht hn hr
  have hm : c ∉ ['\t', '\n', '\r'] := by simp [ht, hn, hr]
  split
  · refine .code (least := 0) (w := 2) ?_ hm (by simp) (by omega) (by omega) (hexFixed_length _ _)
      (hexFixed_hex _ _ (by omega))
    unfold Visible
    omega
  split
  · refine .itself (Or.inl ⟨by omega, by omega⟩) (fun h => h0 (Or.inl h)) (fun h => h0 (Or.inr h))
  split
  · rename_i hp
    exact .itself (Or.inr ⟨by omega, hp⟩) (fun h => h0 (Or.inl h)) (fun h => h0 (Or.inr h))
  rename_i hp
  have hv : ¬ Visible printable c := by
    unfold Visible
    rintro (h | h)
    · omega
    · exact hp h.2
  split
  · exact .code (least := 0) (w := 2) hv hm (by simp) (by omega) (by omega) (hexFixed_length _ _)
      (hexFixed_hex _ _ (by omega))
  split
  · exact .code (least := 256) (w := 4) hv hm (by simp) (by omega) (by omega) (hexFixed_length _ _)
      (hexFixed_hex _ _ (by omega))
  · exact .code (least := 65536) (w := 8) hv hm (by simp) (by omega) (by omega) (hexFixed_length _ _)
      (hexFixed_hex _ _ (by omega))

theorem charText_inj {printable : Char → Bool} {q c : Char} (hq : q ∈ ['\'', '"']) {t t' : Str}
    (h : CharText printable q c t) (h' : CharText printable q c t') : t = t' := by
  have hv : Visible printable q := by
    simp only [List.mem_cons, List.not_mem_nil, or_false] at hq
    rcases hq with rfl | rfl <;> exact Or.inl (by decide)
  have hb : Visible printable '\\' := Or.inl (by decide)
  have hl : ∀ e, (c, e) ∈ [('\t', 't'), ('\n', 'n'), ('\r', 'r')] →
      c ∈ ['\t', '\n', '\r'] ∧ ¬ Visible printable c ∧ c ≠ q ∧ c ≠ '\\' := by
    intro e he
    simp only [List.mem_cons, Prod.mk.injEq, List.not_mem_nil, or_false] at he hq
    rcases he with ⟨rfl, -⟩ | ⟨rfl, -⟩ | ⟨rfl, -⟩ <;>
      exact ⟨by simp, by unfold Visible; rintro (h | h) <;> revert h <;> simp,
        by rcases hq with rfl | rfl <;> decide, by decide⟩
  cases h with
  | itself h1 h2 h3 =>
    cases h' with
    | itself => rfl
    | escaped g => exact absurd g (by tauto)
    | letter g => exact absurd h1 (hl _ g).2.1
    | code g => exact absurd h1 g
  | escaped h1 =>
    cases h' with
    | itself g1 g2 g3 => exact absurd h1 (by tauto)
    | escaped => rfl
    | letter g => exact absurd h1 (by have := (hl _ g).2.2; tauto)
    | code g => exact absurd (by rcases h1 with rfl | rfl <;> assumption) g
  | letter h1 =>
    cases h' with
    | itself g1 => exact absurd g1 (hl _ h1).2.1
    | escaped g => exact absurd g (by have := (hl _ h1).2.2; tauto)
    | letter g =>
      simp only [List.mem_cons, Prod.mk.injEq, List.not_mem_nil, or_false] at h1 g
      rcases h1 with ⟨rfl, rfl⟩ | ⟨rfl, rfl⟩ | ⟨rfl, rfl⟩ <;> simp at g <;> rw [g]
    | code _ g => exact absurd (hl _ h1).1 g
  | code h1 h2 h3 h4 h5 h6 h7 =>
    cases h' with
    | itself g1 => exact absurd g1 h1
    | escaped g => exact absurd (by rcases g with rfl | rfl <;> assumption) h1
    | letter g => exact absurd (hl _ g).1 h2
    | code _ _ g3 g4 g5 g6 g7 =>
      simp only [List.mem_cons, Prod.mk.injEq, List.not_mem_nil, or_false] at h3 g3
      rcases h3 with ⟨rfl, rfl, rfl⟩ | ⟨rfl, rfl, rfl⟩ | ⟨rfl, rfl, rfl⟩ <;>
        rcases g3 with ⟨rfl, rfl, rfl⟩ | ⟨rfl, rfl, rfl⟩ | ⟨rfl, rfl, rfl⟩ <;>
        first
          | omega
          | rw [hex_inj h7 g7 (h6.trans g6.symm)]

theorem forall₂_self {α β : Type} {R : α → β → Prop} (f : α → β) (h : ∀ a, R a (f a)) :
    ∀ l : List α, List.Forall₂ R l (l.map f)
  | [] => .nil
  | a :: l => .cons (h a) (forall₂_self f h l)

theorem forall₂_inj {α β : Type} {R : α → β → Prop} (h : ∀ a b b', R a b → R a b' → b = b') :
    ∀ {l : List α} {m m' : List β}, List.Forall₂ R l m → List.Forall₂ R l m' → m = m'
  | _, _, _, .nil, .nil => rfl
  | _, _, _, .cons a b, .cons a' b' => by rw [h _ _ _ a a', forall₂_inj h b b']

theorem reprStr_text (printable : Char → Bool) (s : Str) : StrText printable s (reprStr printable s) := by
  unfold reprStr
  refine ⟨if s.contains '\'' && !s.contains '"' then '"' else '\'', s.map _, ⟨fun h => ?_, fun h => ?_⟩,
    forall₂_self _ (fun c => reprChar_text printable _ c) s, ?_⟩
  · rw [if_pos (by simpa using h)]
  · rw [if_neg (by simpa using h)]
  · simp [List.flatMap]

theorem strText_inj {printable : Char → Bool} {s t t' : Str} (h : StrText printable s t)
    (h' : StrText printable s t') : t = t' := by
  obtain ⟨q, ts, hq, hc, rfl⟩ := h
  obtain ⟨q', ts', hq', hc', rfl⟩ := h'
  have hm : q ∈ ['\'', '"'] ∧ q = q' := by
    by_cases e : '\'' ∈ s ∧ '"' ∉ s
    · rw [hq.1 e, hq'.1 e]; simp
    · rw [hq.2 e, hq'.2 e]; simp
  obtain ⟨hm, rfl⟩ := hm
  rw [forall₂_inj (R := CharText printable q) (fun _ _ _ h h' => charText_inj hm h h') hc hc']

/-! ### Values -/

theorem display_inj {printable : Char → Bool} {v : Val} {t : Str} (h : Display printable v t) :
    ∀ t', Display printable v t' → t = t' := by
  refine Display.rec (motive_1 := fun v t _ => ∀ t', Display printable v t' → t = t')
    (motive_2 := fun l ts _ => ∀ ts', List.Forall₂ (Display printable) l ts' → ts = ts')
    ?_ ?_ ?_ ?_ ?_ ?_ ?_ ?_ h
  · intro t' h'; cases h'; rfl
  · intro n t hn t' h'; cases h' with | int g => exact shortest_inj hn g
  · intro s t hs t' h'; cases h' with | str g => exact strText_inj hs g
  · intro l ts _ ih t' h'; cases h' with | list g => rw [ih _ g]
  · intro ks vs kt vt hk _ ih t' h'
    cases h' with | dict g1 g2 =>
      rw [ih _ g2, forall₂_inj (R := StrText printable) (fun _ _ _ h h' => strText_inj h h') hk g1]
  · intro cls a t h1 h2 h3 t' h'
    cases h' with
    | object g1 g2 g3 => rw [hex_inj h2 g2 (le_antisymm (h3 _ g1 g2) (g3 _ h1 h2))]
  · intro ts' h'; cases h'; rfl
  · intro a b l m _ _ ih1 ih2 ts' h'
    cases h' with | cons g1 g2 => rw [ih1 _ g1, ih2 _ g2]

theorem display_opt (printable : Char → Bool) (s : Option Str) :
    Display printable (optVal s) (reprOpt printable s) := by
  cases s with
  | none => exact .none
  | some s => exact .str (reprStr_text printable s)

theorem display_card (printable : Char → Bool) (addr : CodeCard → Nat) (c : CodeCard) :
    Display printable (.object (py "h800.arguscard.Card") (addr c)) (reprCard addr c) := by
  obtain ⟨h1, h2, h3, h4⟩ := digits_spec 16 (addr c) (by omega)
  have hh := hexDigits_hex _ h2
  rw [h1] at hh
  have := Display.object (printable := printable) (cls := py "h800.arguscard.Card")
    (h := (digits 16 (addr c)).map hexChar) (by simpa using h4) hh (fun t ht hx => by
      rw [List.length_map]
      exact h3 _ (List.length_pos_iff.2 ht) (hex_lt hx))
  simpa [reprCard] using this

theorem display_def (printable : Char → Bool) (addr : CodeCard → Nat) (f : Option Str) (n : Int)
    (lg tt : Option Str) (c : CodeCard) :
    Display printable (defVal addr f n lg tt c) (reprDef printable addr f n lg tt c) := by
  have k : ∀ s : Str, (reprStr printable s = '\'' :: (s ++ ['\''])) →
      StrText printable s ('\'' :: (s ++ ['\''])) := fun s h => h ▸ reprStr_text printable s
  have := Display.dict (printable := printable)
    (.cons (k (py "file") rfl) (.cons (k (py "line") rfl) (.cons (k (py "lognum") rfl)
      (.cons (k (py "tagtype") rfl) (.cons (k (py "card") rfl) .nil)))))
    (.cons (display_opt printable f) (.cons (.int (pyStr_shortest n)) (.cons (display_opt printable lg)
      (.cons (display_opt printable tt) (.cons (display_card printable addr c) .nil)))))
  simpa [defVal, reprDef, List.intercalate, List.intersperse] using this

theorem display_dict {ν : Type} (printable : Char → Bool) {val : ν → Val} {value : ν → Str}
    (h : ∀ v, Display printable (val v) (value v)) (d : Dict Str ν) :
    Display printable (.dict (d.map (·.1)) (d.map fun p => val p.2)) (reprDict printable value d) := by
  have h1 : List.Forall₂ (StrText printable) (d.map (·.1)) (d.map fun p => reprStr printable p.1) := by
    rw [List.forall₂_map_left_iff]
    exact forall₂_self _ (fun p => reprStr_text printable p.1) d
  have h2 : List.Forall₂ (Display printable) (d.map fun p => val p.2) (d.map fun p => value p.2) := by
    rw [List.forall₂_map_left_iff]
    exact forall₂_self _ (fun p => h p.2) d
  have := Display.dict h1 h2
  simpa [reprDict, joinText_intercalate, List.zipWith_map, List.zipWith_self] using this

theorem display_kinds (printable : Char → Bool) (addr : CodeCard → Nat) (d : Dict Str SymEntry) :
    Display printable (kindsVal addr d) (reprDict printable (reprEntry printable addr) d) :=
  display_dict printable
    (val := fun e : SymEntry => defVal addr e.file e.line e.lognum (some e.tagtype) e.card)
    (value := reprEntry printable addr)
    (fun e => display_def printable addr e.file e.line e.lognum (some e.tagtype) e.card) d

end H800
