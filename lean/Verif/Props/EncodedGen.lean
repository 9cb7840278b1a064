import Verif.Model.EncodedGen
import Verif.Props.Encoded
import Verif.Lemmas.CrashPages
import Verif.Lemmas.Operands

/-!
C246: genpages and genlines write no characters that their encoding lacks.
-/

namespace H800

open Spec

theorem writeIn_all {enc : Char → Bool} (ls : List Str) (h : ∀ l ∈ ls, EncLine enc l) :
    writeIn enc ls = (ls.flatten, .ok ()) := by
  induction ls with
  | nil => rfl
  | cons l ls ih =>
    rw [writeIn, if_pos (List.all_eq_true.2 (h l List.mem_cons_self)),
      ih fun x hx => h x (List.mem_cons_of_mem _ hx)]
    rfl

/-- What is appended to a file can be encoded if the file can. -/
theorem enc_pagesLines {enc : Char → Bool} (ha : ∀ c : Char, c.toNat < 128 → enc c = true)
    {fs : FileSystem} {fuel : Nat} {text sec : Str} {st : PagesState} (ht : EncLine enc text)
    (h : pagesInfo fs fuel (readlines text) = .ok st) (hs : st.section_ = some sec) (start end_ : Int) :
    ∀ l ∈ pagesLines st.col8 sec start end_, EncLine enc l := by
  obtain ⟨h1, h2⟩ := pagesInfo_sub h (fun c => enc c = true)
    (fun l hl c hc => ht c (readlines_char hl hc))
    (fun c hc => ha c ((by decide : ∀ c ∈ py " @None", c.toNat < 128) c hc))
  have hsec : EncLine enc sec := h1 sec hs
  have hcol : EncLine enc st.col8.toStr := h2
  have hnl : EncLine enc (py "\n") := encLine_ascii ha (by decide)
  have hnum : ∀ n : Int, EncLine enc (padLeft ' ' 4 (pyStr n)) :=
    fun n => encLine_padLeft ha (by decide) _ (encLine_pyStr ha n)
  have hpage : ∀ p : Int, ∀ l ∈ pageLines st.col8 sec start p, EncLine enc l := by
    intro p l hl
    simp only [pageLines, List.mem_cons, List.not_mem_nil, or_false] at hl
    rcases hl with rfl | rfl | rfl | rfl
    · exact hnl
    · exact encLine_append (encLine_append (encLine_ascii ha (by decide)) (encLine_pyStr ha _)) hnl
    · exact encLine_append (encLine_append (encLine_append (encLine_append (encLine_append
        (encLine_append (encLine_append (encLine_ascii ha (by decide)) hcol)
          (encLine_padRight ha _ hsec)) (encLine_ascii ha (by decide))) (hnum _))
          (encLine_ascii ha (by decide))) (hnum _)) hnl
    · exact hnl
  intro l hl
  simp only [pagesLines, List.mem_append, List.mem_cons, List.not_mem_nil, or_false,
    List.mem_flatMap] at hl
  rcases hl with (rfl | rfl) | ⟨p, _, hl⟩
  · exact hnl
  · exact encLine_append (encLine_append (encLine_append (encLine_ascii ha (by decide)) hcol) hsec) hnl
  · exact hpage p l hl

/-- C246: genpages does with any encoding that has all characters of ASCII, and those of the file that it
has read in it, what it does with an encoding that has all characters. -/
theorem C246_genpages (enc : Char → Bool) (fs : FileSystem) (fuel : Nat) (args : List Str)
    (ha : ∀ c : Char, c.toNat < 128 → enc c = true)
    (ht : ∀ f ∈ args.head?, ∀ text, fs f = some text → ∀ c ∈ text, enc c = true) :
    genpagesIn enc fs fuel args = genpages fs fuel args := by
  cases args with
  | nil => rfl
  | cons f args =>
    unfold genpagesIn genpages
    dsimp only
    cases hf : fs f with
    | none => rfl
    | some text =>
      dsimp only
      cases hi : pagesInfo fs fuel (readlines text) with
      | error e => rfl
      | ok st =>
        dsimp only
        cases hs : st.section_ with
        | none => rfl
        | some sec =>
          dsimp only
          cases st.pages with
          | none => rfl
          | some p =>
            obtain ⟨start, end_⟩ := p
            dsimp only
            split
            · rfl
            · rw [writeIn_all _ (enc_pagesLines ha (ht f rfl text hf) hi hs start end_)]

/-- C246: the files that genpages leaves behind hold no characters but those they held and those of
ASCII. -/
theorem C246_characters (fs : FileSystem) (fuel : Nat) (args : List Str) (f t : Str)
    (h : (genpages fs fuel args).1 f = some t) (c : Char) (hc : c ∈ t) :
    c.toNat < 128 ∨ ∃ text, fs f = some text ∧ c ∈ text := by
  have same : fs f = some t → c.toNat < 128 ∨ ∃ text, fs f = some text ∧ c ∈ text :=
    fun e => .inr ⟨t, e, hc⟩
  cases args with
  | nil => exact same h
  | cons file args =>
    unfold genpages at h
    dsimp only at h
    split at h
    · exact same h
    · next text hf =>
      split at h
      · exact same h
      · next st hi =>
        split at h
        · exact same h
        · next sec hs =>
          split at h
          · exact same h
          · next start end_ _ =>
            split at h
            · exact same h
            · dsimp only at h
              unfold writeFile at h
              split at h
              · next e =>
                subst e
                cases h
                have he := enc_pagesLines (enc := fun c => decide (c.toNat < 128 ∨ c ∈ text))
                  (fun c h => decide_eq_true (.inl h)) (fun c h => decide_eq_true (.inr h)) hi hs
                  start end_
                rcases List.mem_append.1 hc with hc | hc
                · exact .inr ⟨text, hf, hc⟩
                · obtain ⟨l, hl, hc⟩ := List.mem_flatten.1 hc
                  rcases of_decide_eq_true (he l hl c hc) with h | h
                  · exact .inl h
                  · exact .inr ⟨text, hf, h⟩
              · exact same h

theorem genlines_ascii {enc : Char → Bool} (ha : ∀ c : Char, c.toNat < 128 → enc c = true)
    (w : Nat) (a b i : Int) : EncLine enc (genLine w a b i) := by
  have hsp : ∀ k : Int, EncLine enc (spaces k) := fun k => encLine_replicate (ha _ (by decide)) _
  refine encLine_append (encLine_append (hsp _) ?_) (hsp _)
  unfold zeroPad
  split
  · exact encLine_cons (ha _ (by decide)) (encLine_padLeft ha (by decide) _ (encLine_numeral ha _))
  · exact encLine_padLeft ha (by decide) _ (encLine_numeral ha _)

theorem genlines_made {args lines : List Str} (h : genlines args = .ok lines) :
    ∀ l ∈ lines, ∃ w a b i, l = genLine w a b i := by
  unfold genlines at h
  split at h
  · split at h
    · cases h
    · split at h
      · cases h
      · obtain ⟨start, _, h⟩ := py_bind_inv h
        obtain ⟨end_, _, h⟩ := py_bind_inv h
        dsimp only at h
        split at h
        · cases h
        · obtain ⟨step, _, h⟩ := py_bind_inv h
          obtain ⟨a, _, h⟩ := py_bind_inv h
          obtain ⟨b, _, h⟩ := py_bind_inv h
          obtain ⟨nums, _, h⟩ := py_bind_inv h
          cases h
          intro l hl
          obtain ⟨i, _, rfl⟩ := List.mem_map.1 hl
          exact ⟨_, _, _, _, rfl⟩
  · cases h

/-- C246: genlines prints on every output that has all characters of ASCII all its lines. -/
theorem C246_genlines (enc : Char → Bool) (args : List Str)
    (ha : ∀ c : Char, c.toNat < 128 → enc c = true) :
    genlinesIn enc args = match genlines args with
      | .error e => ([], .error e)
      | .ok lines => (printed lines, .ok ()) := by
  unfold genlinesIn
  cases h : genlines args with
  | error e => rfl
  | ok lines =>
    dsimp only
    refine printIn_all _ fun l hl => ?_
    obtain ⟨w, a, b, i, rfl⟩ := genlines_made h l hl
    exact genlines_ascii ha w a b i

/-- A file whose log section has an accent. -/
def accentPages : FileSystem := fun f =>
  if f = py "A.arg" then some (py "# Pages: 7\nL      @ZÉRO\n") else none

/-- In Latin-1 the page is appended, with the accent; an encoding without it, in which the file could not
have been read, leaves the page out. -/
example : (∀ c : Char, c.toNat < 128 → (fun c : Char => decide (c.toNat < 256)) c = true) ∧
    (∀ f ∈ ([py "A.arg"] : List Str).head?, ∀ text, accentPages f = some text →
      ∀ c ∈ text, (fun c : Char => decide (c.toNat < 256)) c = true) ∧
    (genpagesIn (fun c => decide (c.toNat < 256)) accentPages 10 [py "A.arg"]).2 = .ok () ∧
    ((genpagesIn (fun c => decide (c.toNat < 256)) accentPages 10 [py "A.arg"]).1 (py "A.arg")).map
      List.length = some 170 ∧
    genpagesIn (fun c => decide (c.toNat < 128)) accentPages 10 [py "A.arg"] =
      (writeFile accentPages (py "A.arg") (py "# Pages: 7\nL      @ZÉRO\n\n"), .error .valueError) := by
  refine ⟨fun c h => decide_eq_true (by omega), ?_, by decide +kernel, by decide +kernel, ?_⟩
  · intro f hf text h
    cases hf
    cases h
    decide +kernel
  · rfl

example : genlinesIn (fun c => decide (c.toNat < 128)) [py "1", py "2"] =
    (py " 0001   \n 0002   \n", .ok ()) := by decide +kernel

end H800
