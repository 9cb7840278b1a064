import Verif.Model.Repr
import Verif.Spec.Repr
import Verif.Props.SymText

/-!
Lemmas about the text of Python values.
-/

namespace H800

open Spec

/-! ### Hexadecimal numerals -/

theorem hexChar_spec (d : Nat) (h : d < 16) : (py "0123456789abcdef")[d]? = some (hexChar d) := by
  have : ∀ d : Fin 16, (py "0123456789abcdef")[d.1]? = some (hexChar d.1) := by decide
  exact this ⟨d, h⟩

theorem hexFixed_length (w n : Nat) : (hexFixed w n).length = w := by
  induction w generalizing n with
  | zero => rfl
  | succ w ih => simp [hexFixed, ih]

theorem hexFixed_hex (w n : Nat) (h : n < 16 ^ w) : Hex (hexFixed w n) n := by
  induction w generalizing n with
  | zero =>
    obtain rfl : n = 0 := by simpa using h
    exact .nil
  | succ w ih =>
    have h1 : n / 16 < 16 ^ w := Nat.div_lt_of_lt_mul (by rw [pow_succ] at h; omega)
    have := Hex.snoc (ih _ h1) (hexChar_spec (n % 16) (Nat.mod_lt _ (by omega)))
    rw [Nat.div_add_mod] at this
    exact this

theorem hex_unique {t : Str} {m n : Nat} (h : Hex t m) (h' : Hex t n) : m = n := by
  induction h generalizing n with
  | nil =>
    generalize hu : ([] : Str) = u at h'
    cases h' with
    | nil => rfl
    | snoc _ _ => simp at hu
  | @snoc t v d c ht hd ih =>
    generalize hu : t ++ [c] = u at h'
    cases h' with
    | nil => simp at hu
    | @snoc t' v' d' c' ht' hd' =>
      obtain ⟨rfl, hc⟩ := List.append_inj' hu rfl
      obtain rfl : c = c' := by simpa using hc
      obtain rfl := ih ht'
      have h1 : d < 16 := by
        obtain ⟨h, -⟩ := List.getElem?_eq_some_iff.1 hd; simpa using h
      have h2 : d' < 16 := by
        obtain ⟨h, -⟩ := List.getElem?_eq_some_iff.1 hd'; simpa using h
      have key : ∀ a b : Fin 16, (py "0123456789abcdef")[a.1]? = (py "0123456789abcdef")[b.1]? →
          a = b := by decide
      have := key ⟨d, h1⟩ ⟨d', h2⟩ (hd.trans hd'.symm)
      simp only [Fin.mk.injEq] at this
      rw [this]

theorem hex_newline {t : Str} {n : Nat} (h : Hex t n) : ∀ c ∈ t, c ≠ '\n' ∧ c ≠ '\r' := by
  induction h with
  | nil => intro c hc; cases hc
  | snoc _ hd ih =>
    intro c hc
    rcases List.mem_append.1 hc with hc | hc
    · exact ih c hc
    · have hc := List.mem_singleton.1 hc
      have : ∀ x ∈ py "0123456789abcdef", x ≠ '\n' ∧ x ≠ '\r' := by decide
      rw [hc]
      exact this _ (List.mem_of_getElem? hd)

/-! ### String literals -/

theorem quoted_unique {q : Char} (hq : q ∈ ['\'', '"']) {t s t' s' u u' : Str} (h : Quoted q t s)
    (h' : Quoted q t' s') (e : t ++ u = t' ++ u') : s = s' ∧ u = u' := by
  have hqb : q ≠ '\\' := by rintro rfl; revert hq; decide
  induction h generalizing t' s' with
  | done =>
    cases h' with
    | done => exact ⟨rfl, by simpa using e⟩
    | plain h1 => simp only [List.cons_append, List.cons.injEq] at e; exact absurd e.1.symm h1
    | escape => simp only [List.cons_append, List.cons.injEq] at e; exact absurd e.1 hqb
    | code => simp only [List.cons_append, List.cons.injEq] at e; exact absurd e.1 hqb
  | @plain c t s h1 h2 _ _ _ ih =>
    cases h' with
    | done => simp only [List.cons_append, List.cons.injEq] at e; exact absurd e.1 h1
    | plain g1 _ _ _ hg =>
      simp only [List.cons_append, List.cons.injEq] at e
      obtain ⟨rfl, e2⟩ := ih hg e.2
      exact ⟨by rw [e.1], e2⟩
    | escape => simp only [List.cons_append, List.cons.injEq] at e; exact absurd e.1 h2
    | code => simp only [List.cons_append, List.cons.injEq] at e; exact absurd e.1 h2
  | @escape c v t s h1 _ ih =>
    cases h' with
    | done => simp only [List.cons_append, List.cons.injEq] at e; exact absurd e.1.symm hqb
    | plain _ g2 => simp only [List.cons_append, List.cons.injEq] at e; exact absurd e.1.symm g2
    | escape g1 hg =>
      simp only [List.cons_append, List.cons.injEq, true_and] at e
      obtain ⟨rfl, e2⟩ := ih hg e.2
      refine ⟨?_, e2⟩
      obtain ⟨rfl, -⟩ := e
      simp only [List.mem_cons, Prod.mk.injEq, List.not_mem_nil, or_false] at h1 g1
      rcases h1 with ⟨rfl, rfl⟩ | ⟨rfl, rfl⟩ | ⟨rfl, rfl⟩ | ⟨rfl, rfl⟩ | ⟨rfl, rfl⟩ | ⟨rfl, rfl⟩ <;>
        simp at g1 <;> rw [g1]
    | code g1 =>
      simp only [List.cons_append, List.cons.injEq, true_and] at e
      obtain ⟨rfl, -⟩ := e
      exfalso
      simp only [List.mem_cons, Prod.mk.injEq, List.not_mem_nil, or_false] at h1 g1
      rcases g1 with ⟨rfl, -⟩ | ⟨rfl, -⟩ | ⟨rfl, -⟩ <;> simp at h1
  | @code k w hx c t s h1 h2 h3 _ ih =>
    cases h' with
    | done => simp only [List.cons_append, List.cons.injEq] at e; exact absurd e.1.symm hqb
    | plain _ g2 => simp only [List.cons_append, List.cons.injEq] at e; exact absurd e.1.symm g2
    | escape g1 hg =>
      simp only [List.cons_append, List.cons.injEq, true_and] at e
      obtain ⟨rfl, -⟩ := e
      exfalso
      simp only [List.mem_cons, Prod.mk.injEq, List.not_mem_nil, or_false] at h1 g1
      rcases h1 with ⟨rfl, -⟩ | ⟨rfl, -⟩ | ⟨rfl, -⟩ <;> simp at g1
    | @code k' w' hx' c' _ _ g1 g2 g3 hg =>
      simp only [List.cons_append, List.cons.injEq, true_and, List.append_assoc] at e
      obtain ⟨rfl, e⟩ := e
      have hw : w = w' := by
        simp only [List.mem_cons, Prod.mk.injEq, List.not_mem_nil, or_false] at h1 g1
        rcases h1 with ⟨rfl, rfl⟩ | ⟨rfl, rfl⟩ | ⟨rfl, rfl⟩ <;> simp at g1 <;> exact g1.symm
      obtain ⟨rfl, e3⟩ := List.append_inj e (by rw [h2, g2, hw])
      obtain ⟨rfl, e2⟩ := ih hg e3
      have : c = c' := Char.ext (UInt32.toNat_inj.1 (hex_unique h3 g3))
      exact ⟨by rw [this], e2⟩

theorem literal_unique {t s t' s' u u' : Str} (h : Literal t s) (h' : Literal t' s')
    (e : t ++ u = t' ++ u') : s = s' ∧ u = u' := by
  obtain ⟨q, hq, b, rfl, hb⟩ := h
  obtain ⟨q', hq', b', rfl, hb'⟩ := h'
  simp only [List.cons_append, List.cons.injEq] at e
  obtain ⟨rfl, e⟩ := e
  exact quoted_unique hq hb hb' e

theorem quoted_newline {q : Char} (hq : q ∈ ['\'', '"']) {t s : Str} (h : Quoted q t s) :
    ∀ c ∈ t, c ≠ '\n' ∧ c ≠ '\r' := by
  induction h with
  | done =>
    intro c hc
    obtain rfl : c = q := by simpa using hc
    simp only [List.mem_cons, List.not_mem_nil, or_false] at hq
    rcases hq with rfl | rfl <;> decide
  | plain _ _ h1 h2 _ ih =>
    intro c hc
    rcases List.mem_cons.1 hc with rfl | hc
    · exact ⟨h1, h2⟩
    · exact ih c hc
  | escape h1 _ ih =>
    intro c hc
    rcases List.mem_cons.1 hc with rfl | hc
    · decide
    · rcases List.mem_cons.1 hc with rfl | hc
      · simp only [List.mem_cons, Prod.mk.injEq, List.not_mem_nil, or_false] at h1
        rcases h1 with ⟨rfl, -⟩ | ⟨rfl, -⟩ | ⟨rfl, -⟩ | ⟨rfl, -⟩ | ⟨rfl, -⟩ | ⟨rfl, -⟩ <;> decide
      · exact ih c hc
  | code h1 _ h3 _ ih =>
    intro c hc
    rcases List.mem_cons.1 hc with rfl | hc
    · decide
    · rcases List.mem_cons.1 hc with rfl | hc
      · simp only [List.mem_cons, Prod.mk.injEq, List.not_mem_nil, or_false] at h1
        rcases h1 with ⟨rfl, -⟩ | ⟨rfl, -⟩ | ⟨rfl, -⟩ <;> decide
      · rcases List.mem_append.1 hc with hc | hc
        · exact hex_newline h3 c hc
        · exact ih c hc

theorem char_lt (c : Char) : c.toNat < 16 ^ 8 := by
  have := c.val.toNat_lt
  show c.val.toNat < _
  omega

theorem reprChar_quoted (printable : Char → Bool) {q : Char} (hq : q ∈ ['\'', '"']) (c : Char)
    {t s : Str} (h : Quoted q t s) : Quoted q (reprChar printable q c ++ t) (c :: s) := by
  unfold reprChar
  split
  · rename_i hc
    refine .escape ?_ h
    rcases hc with rfl | rfl
    · simp only [List.mem_cons, List.not_mem_nil, or_false] at hq
      rcases hq with rfl | rfl <;> decide
    · decide
  · rename_i h1
    rw [not_or] at h1
    split
    · rename_i hc; subst hc; exact .escape (by decide) h
    · split
      · rename_i hc; subst hc; exact .escape (by decide) h
      · rename_i hn
        split
        · rename_i hc; subst hc; exact .escape (by decide) h
        · rename_i hr
          split
          · rename_i hc
            exact .code (k := 'x') (w := 2) (by decide) (hexFixed_length _ _)
              (hexFixed_hex _ _ (by omega)) h
          · split
            · exact .plain h1.1 h1.2 hn hr h
            · split
              · exact .plain h1.1 h1.2 hn hr h
              · split
                · exact .code (k := 'x') (w := 2) (by decide) (hexFixed_length _ _)
                    (hexFixed_hex _ _ (by omega)) h
                · split
                  · exact .code (k := 'u') (w := 4) (by decide) (hexFixed_length _ _)
                      (hexFixed_hex _ _ (by omega)) h
                  · exact .code (k := 'U') (w := 8) (by decide) (hexFixed_length _ _)
                      (hexFixed_hex _ _ (char_lt c)) h

theorem reprStr_literal (printable : Char → Bool) (s : Str) : Literal (reprStr printable s) s := by
  have key : ∀ q ∈ ['\'', '"'], Quoted q (s.flatMap (reprChar printable q) ++ [q]) s := by
    intro q hq
    induction s with
    | nil => exact .done
    | cons c s ih =>
      rw [List.flatMap_cons, List.append_assoc]
      exact reprChar_quoted printable hq c ih
  unfold reprStr
  split
  · exact ⟨'"', by decide, _, rfl, key _ (by decide)⟩
  · exact ⟨'\'', by decide, _, rfl, key _ (by decide)⟩

theorem literal_newline {t s : Str} (h : Literal t s) : '\n' ∉ t := by
  obtain ⟨q, hq, b, rfl, hb⟩ := h
  intro hc
  rcases List.mem_cons.1 hc with rfl | hc
  · revert hq; decide
  · exact (quoted_newline hq hb _ hc).1 rfl

/-! ### What can be read off a text -/

section
variable {α β γ δ : Type}

theorem readable_pre {f f' : α → Str} {g : α → β} (p : Str) (h : Readable f f' g) :
    Readable (fun a => p ++ f a) (fun a => p ++ f' a) g := by
  intro a b s t e
  simp only [List.append_assoc] at e
  exact h a b s t (List.append_cancel_left e)

theorem readable_post {f f' : α → Str} {g : α → β} (p : Str) (h : Readable f f' g) :
    Readable (fun a => f a ++ p) (fun a => f' a ++ p) g := by
  intro a b s t e
  simp only [List.append_assoc] at e
  obtain ⟨e1, e2⟩ := h a b _ _ e
  exact ⟨e1, List.append_cancel_left e2⟩

theorem readable_seq {f₁ f₁' f₂ f₂' : α → Str} {g₁ : α → β} {g₂ : α → γ} (h₁ : Readable f₁ f₁' g₁)
    (h₂ : Readable f₂ f₂' g₂) :
    Readable (fun a => f₁ a ++ f₂ a) (fun a => f₁' a ++ f₂' a) (fun a => (g₁ a, g₂ a)) := by
  intro a b s t e
  simp only [List.append_assoc] at e
  obtain ⟨e1, e2⟩ := h₁ a b _ _ e
  obtain ⟨e3, e4⟩ := h₂ a b _ _ e2
  exact ⟨Prod.ext e1 e3, e4⟩

theorem readable_comp {f f' : α → Str} {g : α → β} (k : δ → α) (h : Readable f f' g) :
    Readable (fun a => f (k a)) (fun a => f' (k a)) (fun a => g (k a)) := fun a b => h (k a) (k b)

theorem readable_until {f f' : α → Str} {g : α → β} (c : Char) (p : Str) (hf : ∀ a, c ∉ f a)
    (hf' : ∀ a, c ∉ f' a) (hg : ∀ a b, f a = f' b → g a = g b) :
    Readable (fun a => f a ++ c :: p) (fun a => f' a ++ c :: p) g := by
  intro a b s t e
  simp only [List.append_assoc, List.cons_append] at e
  obtain ⟨e1, e2⟩ := until_char (hf a) (hf' b) e
  exact ⟨hg _ _ e1, List.append_cancel_left e2⟩

theorem joined_readable {f f' : α → Str} {g : α → β} {z : Char} (hz : z ≠ ',')
    (h : Readable f f' g) (h0 : ∀ a, ∃ c t, f a = c :: t ∧ c ≠ z)
    (h0' : ∀ a, ∃ c t, f' a = c :: t ∧ c ≠ z) :
    Readable (fun l : List α => joinText (py ", ") (l.map f) ++ [z])
      (fun l => joinText (py ", ") (l.map f') ++ [z]) (fun l => l.map g) := by
  have one : ∀ (f : α → Str) (x : α) (l : List α), joinText (py ", ") ((x :: l).map f) ++ [z] =
      f x ++ (match l with
        | [] => [z]
        | y :: l => ',' :: ' ' :: (joinText (py ", ") ((y :: l).map f) ++ [z])) := by
    intro f x l
    cases l with
    | nil => rfl
    | cons y l => simp [joinText]
  intro l
  induction l with
  | nil =>
    intro l' s t e
    beta_reduce at e ⊢
    cases l' with
    | nil => exact ⟨rfl, List.append_cancel_left e⟩
    | cons x l' =>
      rw [one] at e
      obtain ⟨c, r, h1, h2⟩ := h0' x
      rw [h1] at e
      simp only [List.map_nil, joinText, List.nil_append, List.cons_append, List.cons.injEq] at e
      exact absurd e.1.symm h2
  | cons x l ih =>
    intro l' s t e
    beta_reduce at e ⊢
    cases l' with
    | nil =>
      rw [one] at e
      obtain ⟨c, r, h1, h2⟩ := h0 x
      rw [h1] at e
      simp only [List.map_nil, joinText, List.nil_append, List.cons_append, List.cons.injEq] at e
      exact absurd e.1 h2
    | cons x' l' =>
      rw [one, one, List.append_assoc, List.append_assoc] at e
      obtain ⟨e1, e2⟩ := h x x' _ _ e
      cases l with
      | nil =>
        cases l' with
        | nil => exact ⟨by simp [e1], List.append_cancel_left e2⟩
        | cons y l' =>
          simp only [List.cons_append, List.cons.injEq] at e2
          exact absurd e2.1 hz
      | cons y l =>
        cases l' with
        | nil =>
          simp only [List.cons_append, List.cons.injEq] at e2
          exact absurd e2.1.symm hz
        | cons y' l' =>
          simp only [List.cons_append, List.cons.injEq, true_and] at e2
          obtain ⟨e3, e4⟩ := ih (y' :: l') s t e2
          exact ⟨by simp only [List.map_cons, e1]; exact congrArg _ e3, e4⟩

end

section
variable (p p' : Char → Bool)

theorem readable_str : Readable (reprStr p) (reprStr p') id :=
  fun a b _ _ e => literal_unique (reprStr_literal p a) (reprStr_literal p' b) e

theorem reprStr_head (s : Str) : ∃ c t, reprStr p s = c :: t ∧ (c = '\'' ∨ c = '"') := by
  obtain ⟨q, hq, b, h, -⟩ := reprStr_literal p s
  exact ⟨q, b, h, by simpa using hq⟩

theorem readable_opt : Readable (reprOpt p) (reprOpt p') id := by
  intro a b s t e
  cases a with
  | none =>
    cases b with
    | none => exact ⟨rfl, List.append_cancel_left e⟩
    | some y =>
      obtain ⟨c, r, h, hc⟩ := reprStr_head p' y
      simp only [reprOpt, h, List.cons_append, List.cons.injEq] at e
      rcases hc with rfl | rfl <;> exact absurd e.1 (by decide)
  | some x =>
    cases b with
    | none =>
      obtain ⟨c, r, h, hc⟩ := reprStr_head p x
      simp only [reprOpt, h, List.cons_append, List.cons.injEq] at e
      rcases hc with rfl | rfl <;> exact absurd e.1 (by decide)
    | some y =>
      obtain ⟨e1, e2⟩ := readable_str p p' x y s t e
      exact ⟨congrArg some e1, e2⟩

theorem pyStr_chars (n : Int) : ∀ c ∈ pyStr n, c = '-' ∨ '0' ≤ c ∧ c ≤ '9' := by
  intro c hc
  unfold pyStr at hc
  split at hc
  · rcases List.mem_cons.1 hc with rfl | hc
    · exact Or.inl rfl
    · exact Or.inr ((numeral_decimal _).2.1 c hc)
  · exact Or.inr ((numeral_decimal _).2.1 c hc)

theorem pyStr_inj {m n : Int} (h : pyStr m = pyStr n) : m = n := by
  unfold pyStr at h
  have hne : ∀ a b : Nat, '-' :: numeral 10 a ≠ numeral 10 b := by
    intro a b e
    have := (numeral_decimal b).2.1 '-' (by rw [← e]; simp)
    exact absurd this (by decide)
  split at h <;> split at h
  · have := numeral_inj (List.cons.inj h).2; omega
  · exact absurd h (hne _ _)
  · exact absurd h.symm (hne _ _)
  · have := numeral_inj h; omega

theorem readable_list : Readable (reprList p) (reprList p') id := by
  have hd : ∀ (p : Char → Bool) (s : Str), ∃ c t, reprStr p s = c :: t ∧ c ≠ ']' := by
    intro p s
    obtain ⟨c, t, h, hc⟩ := reprStr_head p s
    exact ⟨c, t, h, by rcases hc with rfl | rfl <;> decide⟩
  have h := readable_pre ['['] (joined_readable (z := ']') (by decide) (readable_str p p')
    (hd p) (hd p'))
  intro a b s t e
  obtain ⟨e1, e2⟩ := h a b s t (by simpa [reprList] using e)
  exact ⟨by simpa using e1, e2⟩

theorem readable_dict {ν β : Type} {value value' : ν → Str} {g : ν → β}
    (hv : Readable value value' g) :
    Readable (reprDict p value) (reprDict p' value') (fun d => d.map fun x => (x.1, g x.2)) := by
  have h1 : Readable (fun x : Str × ν => reprStr p x.1 ++ py ": " ++ value x.2)
      (fun x : Str × ν => reprStr p' x.1 ++ py ": " ++ value' x.2) (fun x => (x.1, g x.2)) :=
    readable_seq (readable_post (py ": ") (readable_comp Prod.fst (readable_str p p')))
      (readable_comp Prod.snd hv)
  have hd : ∀ (p : Char → Bool) (value : ν → Str) (x : Str × ν),
      ∃ c t, reprStr p x.1 ++ py ": " ++ value x.2 = c :: t ∧ c ≠ '}' := by
    intro p value x
    obtain ⟨c, t, h, hc⟩ := reprStr_head p x.1
    exact ⟨c, t ++ py ": " ++ value x.2, by simp [h], by rcases hc with rfl | rfl <;> decide⟩
  have h := readable_pre ['{'] (joined_readable (z := '}') (by decide) h1 (hd p value) (hd p' value'))
  intro a b s t e
  obtain ⟨e1, e2⟩ := h a b s t (by simpa [reprDict] using e)
  exact ⟨e1, e2⟩

theorem hexChar_lt : ∀ d < 16, hexChar d ≠ '>' ∧ hexChar d ≠ '\n' := by decide

theorem hex_digits (n : Nat) : '>' ∉ (digits 16 n).map hexChar ∧ '\n' ∉ (digits 16 n).map hexChar := by
  have h := (digits_spec 16 n (by omega)).2.1
  constructor <;>
  · intro hc
    obtain ⟨d, hd, e⟩ := List.mem_map.1 hc
    have := hexChar_lt d (h d hd)
    simp [e] at this

variable (addr addr' : CodeCard → Nat)

theorem readable_card : Readable (reprCard addr) (reprCard addr') (fun _ => ()) := by
  have := readable_pre (py "<h800.arguscard.Card object at 0x")
    (readable_until (α := CodeCard) (f := fun c => (digits 16 (addr c)).map hexChar)
      (f' := fun c => (digits 16 (addr' c)).map hexChar)
      (g := fun _ => ()) '>' [] (fun c => (hex_digits _).1) (fun c => (hex_digits _).1)
      (fun _ _ _ => rfl))
  intro a b s t e
  exact this a b s t (by simpa [reprCard] using e)

theorem readable_line (q : Str) :
    Readable (fun n : Int => pyStr n ++ ',' :: q) (fun n : Int => pyStr n ++ ',' :: q) id := by
  have h : ∀ n : Int, ',' ∉ pyStr n := fun n hc => by
    rcases pyStr_chars n _ hc with h | h
    · exact absurd h (by decide)
    · exact absurd h.1 (by decide)
  exact readable_until ',' q h h (fun _ _ h => pyStr_inj h)

theorem reprDef_reads {f f' lg lg' tt tt' : Option Str} {n n' : Int} {c c' : CodeCard} {s t : Str}
    (e : reprDef p addr f n lg tt c ++ s = reprDef p' addr' f' n' lg' tt' c' ++ t) :
    (f = f' ∧ n = n' ∧ lg = lg' ∧ tt = tt') ∧ s = t := by
  simp only [reprDef, List.append_assoc] at e
  have e := List.append_cancel_left e
  obtain ⟨e1, e⟩ := readable_opt p p' _ _ _ _ e
  have e := List.append_cancel_left e
  rw [← List.append_assoc, ← List.append_assoc (pyStr n')] at e
  obtain ⟨e2, e⟩ := readable_line (py " 'lognum': ") n n' _ _ e
  obtain ⟨e3, e⟩ := readable_opt p p' _ _ _ _ e
  have e := List.append_cancel_left e
  obtain ⟨e4, e⟩ := readable_opt p p' _ _ _ _ e
  have e := List.append_cancel_left e
  obtain ⟨-, e⟩ := readable_card addr addr' _ _ _ _ e
  exact ⟨⟨e1, e2, e3, e4⟩, List.append_cancel_left e⟩

theorem readable_entry : Readable (reprEntry p addr) (reprEntry p' addr') bareEntry := by
  intro a b s t e
  obtain ⟨⟨h1, h2, h3, h4⟩, e⟩ := reprDef_reads p p' addr addr' e
  refine ⟨?_, e⟩
  unfold bareEntry
  rw [h1, h2, h3, Option.some.inj h4]

theorem readable_kinds : Readable (reprDict p (reprEntry p addr)) (reprDict p' (reprEntry p' addr'))
    (fun d => d.map fun r => (r.1, bareEntry r.2)) :=
  readable_dict p p' (readable_entry p p' addr addr')

theorem readable_defs :
    Readable (reprDict p (reprDict p (reprDict p (reprEntry p addr))))
      (reprDict p' (reprDict p' (reprDict p' (reprEntry p' addr')))) bareDefs :=
  readable_dict p p' (readable_dict p p' (readable_kinds p p' addr addr'))

/-! ### No line breaks -/

theorem reprStr_newline (s : Str) : '\n' ∉ reprStr p s := literal_newline (reprStr_literal p s)

theorem reprOpt_newline (s : Option Str) : '\n' ∉ reprOpt p s := by
  cases s with
  | none => show '\n' ∉ py "None"; decide
  | some s => exact reprStr_newline p s

theorem joinText_newline {l : List Str} (h : ∀ x ∈ l, '\n' ∉ x) {sep : Str} (hs : '\n' ∉ sep) :
    '\n' ∉ joinText sep l := by
  induction l with
  | nil => simp [joinText]
  | cons x l ih =>
    cases l with
    | nil => exact h x (by simp)
    | cons y l =>
      have := ih fun z hz => h z (List.mem_cons_of_mem _ hz)
      have hx := h x (by simp)
      simp only [joinText, List.mem_append, not_or]
      exact ⟨⟨hx, hs⟩, this⟩

theorem reprList_newline (l : List Str) : '\n' ∉ reprList p l := by
  have := joinText_newline (l := l.map (reprStr p)) (sep := py ", ") (by
    intro x hx
    obtain ⟨y, -, rfl⟩ := List.mem_map.1 hx
    exact reprStr_newline p y) (by decide)
  simp only [reprList, List.cons_append, List.mem_cons, List.mem_append, List.not_mem_nil, or_false,
    not_or]
  exact ⟨by decide, this, by decide⟩

theorem reprDict_newline {ν : Type} {value : ν → Str} (hv : ∀ v, '\n' ∉ value v) (d : Dict Str ν) :
    '\n' ∉ reprDict p value d := by
  have := joinText_newline (l := d.map fun x => reprStr p x.1 ++ py ": " ++ value x.2)
    (sep := py ", ") (by
    intro x hx
    obtain ⟨y, -, rfl⟩ := List.mem_map.1 hx
    simp only [List.mem_append, not_or]
    exact ⟨⟨reprStr_newline p _, by decide⟩, hv _⟩) (by decide)
  simp only [reprDict, List.cons_append, List.mem_cons, List.mem_append, List.not_mem_nil, or_false,
    not_or]
  exact ⟨by decide, this, by decide⟩

theorem pyStr_no_newline (n : Int) : '\n' ∉ pyStr n := fun hc => by
  rcases pyStr_chars n _ hc with h | h
  · exact absurd h (by decide)
  · exact absurd h.1 (by decide)

theorem reprDef_newline (f lg tt : Option Str) (n : Int) (c : CodeCard) :
    '\n' ∉ reprDef p addr f n lg tt c := by
  simp only [reprDef, reprCard, List.mem_append, not_or]
  refine ⟨⟨⟨⟨⟨⟨⟨⟨⟨⟨?_, ?_⟩, ?_⟩, ?_⟩, ?_⟩, ?_⟩, ?_⟩, ?_⟩, ?_⟩, ?_⟩, ?_⟩
  · decide
  · exact reprOpt_newline p f
  · decide
  · exact pyStr_no_newline n
  · decide
  · exact reprOpt_newline p lg
  · decide
  · exact reprOpt_newline p tt
  · decide
  · exact ⟨⟨by decide, (hex_digits _).2⟩, by decide⟩
  · decide

theorem found_newline (f : Found) : '\n' ∉ f.text p addr := by
  have he : ∀ e, '\n' ∉ reprEntry p addr e := fun e => reprDef_newline p addr _ _ _ _ _
  cases f with
  | nothing => show '\n' ∉ py "None"; decide
  | names l => exact reprList_newline p l
  | defs d => exact reprDict_newline p (reprDict_newline p (reprDict_newline p he)) d

end

end H800
