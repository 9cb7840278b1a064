import Verif.Props.ListingTool
import Verif.Props.Idle

/-!
Properties C144 and C145: what a listing shows, and what a failing run leaves.
-/

namespace H800

namespace Spec

/-- The name of a file can be told in a column of `w` characters: it has no newline, and it has no
blank at all or fits the column and has none at its end. -/
def Tellable (w : Nat) (name : Str) : Prop :=
  '\n' ∉ name ∧ (' ' ∉ name ∨ (name.length ≤ w ∧ name.getLast? ≠ some ' '))

/-- What is known of a source line but for its newline. -/
def seen (s : Src) : Str × Nat × Str := (s.file, s.num, s.text.filter (· ≠ '\n'))

end Spec

open Spec

/-! ### Auxiliary facts -/

theorem until_blank {m m' T T' : Str} (h : ' ' ∉ m) (h' : ' ' ∉ m')
    (e : m ++ ' ' :: T = m' ++ ' ' :: T') : m = m' ∧ T = T' := by
  induction m generalizing m' with
  | nil =>
    cases m' with
    | nil => simp only [List.nil_append, List.cons.injEq, true_and] at e; exact ⟨rfl, e⟩
    | cons c m' =>
      simp only [List.nil_append, List.cons_append, List.cons.injEq] at e
      exact absurd (by rw [e.1]; simp) h'
  | cons c m ih =>
    cases m' with
    | nil =>
      simp only [List.nil_append, List.cons_append, List.cons.injEq] at e
      exact absurd (by rw [e.1]; simp) h
    | cons c' m' =>
      simp only [List.cons_append, List.cons.injEq] at e
      obtain ⟨rfl, e⟩ := e
      obtain ⟨rfl, h2⟩ := ih (fun hm => h (List.mem_cons_of_mem _ hm))
        (fun hm => h' (List.mem_cons_of_mem _ hm)) e
      exact ⟨rfl, h2⟩

theorem leftIn_blank_free {w : Nat} {m m' b b' T T' : Str} (hb : LeftIn w m b) (hb' : LeftIn w m' b')
    (h : ' ' ∉ m) (h' : ' ' ∉ m') (e : b ++ ' ' :: T = b' ++ ' ' :: T') : m = m' ∧ T = T' := by
  obtain ⟨k, rfl, h1, h2⟩ := hb
  obtain ⟨k', rfl, h1', h2'⟩ := hb'
  have shape : ∀ (m : Str) (k : Nat) (T : Str),
      m ++ List.replicate k ' ' ++ ' ' :: T = m ++ ' ' :: (List.replicate k ' ' ++ T) := by
    intro m k T
    rw [List.append_assoc]
    congr 1
    rw [← List.singleton_append, ← List.append_assoc, ← List.replicate_succ',
      List.replicate_succ]
    rfl
  rw [shape, shape] at e
  obtain ⟨rfl, e2⟩ := until_blank h h' e
  refine ⟨rfl, ?_⟩
  have hk : k = k' := by
    by_cases hm : m.length ≤ w
    · have a1 := h1 hm
      have a2 := h1' hm
      simp only [List.length_append, List.length_replicate] at a1 a2
      omega
    · rw [h2 (by omega), h2' (by omega)]
  subst hk
  exact List.append_cancel_left e2

theorem trim_blank {n n' : Str} {k k' : Nat} (h : n.getLast? ≠ some ' ') (h' : n'.getLast? ≠ some ' ')
    (e : n ++ List.replicate k ' ' = n' ++ List.replicate k' ' ') : n = n' := by
  induction k generalizing k' with
  | zero =>
    cases k' with
    | zero => simpa using e
    | succ k' =>
      rw [List.replicate_succ', ← List.append_assoc] at e
      simp only [List.replicate_zero, List.append_nil] at e
      exact absurd (by rw [e]; simp) h
  | succ k ih =>
    cases k' with
    | zero =>
      rw [List.replicate_succ', ← List.append_assoc] at e
      simp only [List.replicate_zero, List.append_nil] at e
      exact absurd (by rw [← e]; simp) h'
    | succ k' =>
      rw [List.replicate_succ', List.replicate_succ', ← List.append_assoc, ← List.append_assoc] at e
      exact ih (List.append_cancel_right e)

theorem blank_at {w : Nat} {n a R : Str} (h : LeftIn w n a) (hn : n.length ≤ w) :
    (a ++ ' ' :: R)[w]? = some ' ' := by
  obtain ⟨k, rfl, h1, -⟩ := h
  rw [List.getElem?_append_right (by rw [h1 hn]), h1 hn, Nat.sub_self]
  rfl

theorem not_blank_at {w : Nat} {n a R : Str} (h : LeftIn w n a) (hn : w < n.length) (hb : ' ' ∉ n) :
    (a ++ ' ' :: R)[w]? ≠ some ' ' := by
  obtain ⟨k, rfl, -, h2⟩ := h
  rw [h2 hn, List.replicate_zero, List.append_nil, List.getElem?_append_left hn]
  intro hc
  exact hb (List.mem_of_getElem? hc)

theorem name_column {w : Nat} {n n' a a' R R' : Str} (ha : LeftIn w n a) (ha' : LeftIn w n' a')
    (h : Tellable w n) (h' : Tellable w n') (e : a ++ ' ' :: R = a' ++ ' ' :: R') : n = n' ∧ R = R' := by
  have last : ∀ m : Str, Tellable w m → m.getLast? ≠ some ' ' := by
    rintro m ⟨-, h | h⟩
    · intro hl
      exact h (List.mem_of_getLast? hl)
    · exact h.2
  have free : ∀ m : Str, Tellable w m → w < m.length → ' ' ∉ m := by
    rintro m ⟨-, h | h⟩ hm
    · exact h
    · omega
  by_cases hn : n.length ≤ w
  · by_cases hn' : n'.length ≤ w
    · obtain ⟨k, rfl, h1, -⟩ := ha
      obtain ⟨k', rfl, h1', -⟩ := ha'
      obtain ⟨e1, e2⟩ := List.append_inj e (by rw [h1 hn, h1' hn'])
      simp only [List.cons.injEq, true_and] at e2
      exact ⟨trim_blank (last n h) (last n' h') e1, e2⟩
    · have b1 := blank_at (R := R) ha hn
      rw [e] at b1
      exact absurd b1 (not_blank_at ha' (by omega) (free n' h' (by omega)))
  · by_cases hn' : n'.length ≤ w
    · have b1 := blank_at (R := R') ha' hn'
      rw [← e] at b1
      exact absurd b1 (not_blank_at ha (by omega) (free n h (by omega)))
    · exact leftIn_blank_free ha ha' (free n h (by omega)) (free n' h' (by omega)) e

theorem numeral_blank_free (n : Nat) : ' ' ∉ numeral 10 n ∧ '\n' ∉ numeral 10 n := by
  obtain ⟨-, h, -⟩ := numeral_decimal n
  constructor
  · intro hc; exact absurd (h _ hc).1 (by decide)
  · intro hc; exact absurd (h _ hc).1 (by decide)

theorem numeral_inj {m n : Nat} (h : numeral 10 m = numeral 10 n) : m = n := by
  obtain ⟨-, -, h1⟩ := numeral_decimal m
  obtain ⟨-, -, h2⟩ := numeral_decimal n
  rw [← h1, ← h2, h]

theorem listingLine_inj {s s' : Src} {l : Str} (h : ListingLine s l) (h' : ListingLine s' l)
    (ht : Tellable 64 s.file) (ht' : Tellable 64 s'.file) : seen s = seen s' := by
  obtain ⟨a, b, h1, h2, rfl⟩ := h
  obtain ⟨a', b', h1', h2', e⟩ := h'
  simp only [List.append_assoc, List.cons_append] at e
  obtain ⟨e1, e2⟩ := name_column h1 h1' ht ht' e
  obtain ⟨e3, e4⟩ := leftIn_blank_free h2 h2' (numeral_blank_free _).1 (numeral_blank_free _).1 e2
  unfold seen
  rw [e1, numeral_inj e3, e4]

theorem listingLine_newline {s : Src} {l : Str} (h : ListingLine s l) (ht : Tellable 64 s.file) :
    '\n' ∉ l := by
  obtain ⟨a, b, ⟨k, rfl, -⟩, ⟨j, rfl, -⟩, rfl⟩ := h
  intro hc
  simp only [List.append_assoc, List.cons_append, List.mem_append, List.mem_cons,
    List.mem_replicate, List.mem_filter, decide_eq_true_eq] at hc
  rcases hc with hc | hc | hc | hc | hc | hc | hc
  · exact ht.1 hc
  · exact absurd hc.2 (by decide)
  · exact absurd hc (by decide)
  · exact (numeral_blank_free _).2 hc
  · exact absurd hc.2 (by decide)
  · exact absurd hc (by decide)
  · exact hc.2 rfl

theorem expand_names {fs : Str → Option Str} {file : Str} {i : Nat} {ls : List Str} {out : List Src}
    (h : Expand fs file i ls out) : ∀ s ∈ out, s.file = file ∨ ∀ c ∈ s.file, isSpace c = false := by
  induction h with
  | nil => intro s hs; cases hs
  | comment _ ih => exact ih
  | incl hw _ _ _ ih1 ih2 =>
    intro s hs
    rcases List.mem_append.1 hs with hs | hs
    · rcases ih1 s hs with h | h
      · right; rw [h]; exact hw.2.1
      · right; exact h
    · exact ih2 s hs
  | plain _ _ _ ih =>
    intro s hs
    rcases List.mem_cons.1 hs with rfl | hs
    · left; rfl
    · exact ih s hs

theorem expands_tellable {fs : Str → Option Str} {file : Str} {out : List Src}
    (h : Expands fs file out) {w : Nat} (ht : Tellable w file) : ∀ s ∈ out, Tellable w s.file := by
  intro s hs
  obtain ⟨text, -, he⟩ := h
  rcases expand_names he s hs with h | h
  · rw [h]; exact ht
  · refine ⟨fun hc => ?_, Or.inl fun hc => ?_⟩
    · exact absurd (h _ hc) (by decide)
    · exact absurd (h _ hc) (by decide)

theorem listing_lines_inj {out out' : List Src} {ls ls' : List Str}
    (h : List.Forall₂ ListingLine out ls) (h' : List.Forall₂ ListingLine out' ls')
    (ht : ∀ s ∈ out, Tellable 64 s.file) (ht' : ∀ s ∈ out', Tellable 64 s.file)
    (e : (ls.flatMap fun l => l ++ ['\n']) = ls'.flatMap fun l => l ++ ['\n']) :
    out.map seen = out'.map seen := by
  have hn : ∀ {out : List Src} {ls : List Str}, List.Forall₂ ListingLine out ls →
      (∀ s ∈ out, Tellable 64 s.file) →
      readlines (ls.flatMap fun l => l ++ ['\n']) = ls.map (· ++ ['\n']) := by
    intro out ls h ht
    rw [List.flatMap_def]
    apply readlines_lines
    intro l hl
    obtain ⟨t, htm, rfl⟩ := List.mem_map.1 hl
    refine ⟨t, rfl, ?_⟩
    clear hl
    induction h with
    | nil => cases htm
    | cons h1 _ ih =>
      rcases List.mem_cons.1 htm with rfl | htm
      · exact listingLine_newline h1 (ht _ (by simp))
      · exact ih (fun s hs => ht s (List.mem_cons_of_mem _ hs)) htm
  have e2 : ls.map (· ++ ['\n']) = ls'.map (· ++ ['\n']) := by
    rw [← hn h ht, ← hn h' ht', e]
  have e3 : ls = ls' := by
    refine List.map_injective_iff.2 ?_ e2
    intro a b hab
    exact List.append_cancel_right hab
  subst e3
  clear e e2
  induction h generalizing out' with
  | nil => cases h'; rfl
  | cons h1 _ ih =>
    cases h' with
    | cons h1' h2' =>
      rw [List.map_cons, List.map_cons, listingLine_inj h1 h1' (ht _ (by simp)) (ht' _ (by simp)),
        ih (fun s hs => ht s (List.mem_cons_of_mem _ hs))
          (fun s hs => ht' s (List.mem_cons_of_mem _ hs)) h2']

/-! ### C144 -/

/-- C144: if two listings have the same text, they were made from the same source lines: the same
texts, from the same lines of files of the same names. -/
theorem C144_source (fs fs' gs gs' : FileSystem) (m n : Nat) (f g lf lg : Str)
    (hf : listingMain fs m [f] = (fs', .ok ())) (hg : listingMain gs n [g] = (gs', .ok ()))
    (hlf : ListingName f lf) (hlg : ListingName g lg) (heq : fs' lf = gs' lg)
    (tf : Tellable 64 f) (tg : Tellable 64 g) :
    ∃ a b, Expands fs f a ∧ Expands gs g b ∧ a.map seen = b.map seen := by
  have one : ∀ {fs fs' : FileSystem} {m : Nat} {f lf : Str}, listingMain fs m [f] = (fs', .ok ()) →
      ListingName f lf → ∃ out ls, Expands fs f out ∧ List.Forall₂ ListingLine out ls ∧
        fs' lf = some (ls.flatMap fun l => l ++ ['\n']) := by
    intro fs fs' m f lf h hl
    obtain ⟨-, hL⟩ := C94_contents fs fs' m [f] h
    cases hL with
    | cons h1 h2 h3 h4 h5 h6 =>
      cases h6
      rw [listingName_unique h2 hl] at h4
      exact ⟨_, _, h1, h3, h4⟩
  obtain ⟨a, la, a1, a2, a3⟩ := one hf hlf
  obtain ⟨b, lb, b1, b2, b3⟩ := one hg hlg
  refine ⟨a, b, a1, b1, listing_lines_inj a2 b2 (expands_tellable a1 tf) (expands_tellable b1 tg) ?_⟩
  rw [a3, b3] at heq
  exact Option.some.inj heq

/-- The condition on the names is needed: the listings of `A` and of `A` with a blank at its end are
the same. -/
example : let fs : FileSystem := fun _ => some (py "        B          TN\n")
    (listingMain fs 10 [py "A.arg"]).1 (py "A.lst") = (listingMain fs 10 [py "A.arg "]).1 (py "A.lst") ∧
    ¬ Tellable 64 (py "A.arg ") ∧ Tellable 64 (py "A.arg") := by
  refine ⟨by decide +kernel, ?_, by decide, Or.inl (by decide)⟩
  rintro ⟨-, h | h⟩
  · exact h (by decide)
  · exact h.2 (by decide)

/-- Concrete case of the hypotheses: a file with an include and a comment. -/
def backFs : FileSystem := fun f =>
  if f = py "A.arg" then some (py "# all\n$B.arg\n        B          TN\n")
  else if f = py "B.arg" then some (py "        A          BA\n") else none

example : (listingMain backFs 10 [py "A.arg"]).2 = .ok () ∧ Tellable 64 (py "A.arg") ∧
    (listingMain backFs 10 [py "A.arg"]).1 (py "A.lst") = some (
      py "B.arg                                                            1              A          BA\n" ++
      py "A.arg                                                            3              B          TN\n") := by
  refine ⟨by decide +kernel, ⟨by decide, Or.inl (by decide)⟩, by decide +kernel⟩

/-! ### C145 -/

/-- C145: a run of listing that fails has listed the files before one that fails by itself, whatever
files follow. -/
theorem C145_failure (fs fs' : FileSystem) (fuel : Nat) (args : List Str) (e : PyErr)
    (ha : args ≠ []) (h : listingMain fs fuel args = (fs', .error e)) :
    ∃ done f rest, args = done ++ f :: rest ∧ Listed fs done fs' ∧
      listingMain fs' fuel [f] = (fs', .error e) ∧
      ∀ rest', listingMain fs fuel (done ++ f :: rest') = (fs', .error e) := by
  have key : ∀ (args : List Str) (fs : FileSystem), listingFiles fuel fs args = (fs', .error e) →
      ∃ done f rest, args = done ++ f :: rest ∧ listingFiles fuel fs done = (fs', .ok ()) ∧
        listingFiles fuel fs' [f] = (fs', .error e) ∧
        ∀ rest', listingFiles fuel fs (done ++ f :: rest') = (fs', .error e) := by
    intro args
    induction args with
    | nil => intro fs h; cases h
    | cons f args ih =>
      intro fs h
      rw [listingFiles] at h
      cases hd : deckCards fs fuel f with
      | error e' =>
        rw [hd] at h
        cases h
        refine ⟨[], f, args, rfl, rfl, ?_, ?_⟩
        · rw [listingFiles, hd]
        · intro rest'
          rw [List.nil_append, listingFiles, hd]
      | ok cs =>
        rw [hd] at h
        obtain ⟨done, g, rest, h1, h2, h3, h4⟩ := ih _ h
        refine ⟨f :: done, g, rest, by rw [h1]; rfl, ?_, h3, ?_⟩
        · rw [listingFiles, hd]; exact h2
        · intro rest'
          rw [List.cons_append, listingFiles, hd]; exact h4 rest'
  unfold listingMain at h
  rw [if_neg (by cases args with | nil => exact absurd rfl ha | cons a as => simp)] at h
  obtain ⟨done, f, rest, h1, h2, h3, h4⟩ := key args fs h
  refine ⟨done, f, rest, h1, ?_, ?_, ?_⟩
  · cases done with
    | nil => cases h2; exact .nil _
    | cons d ds =>
      refine (C94_contents fs fs' fuel (d :: ds) ?_).2
      unfold listingMain
      rw [if_neg (by simp)]
      exact h2
  · unfold listingMain
    rw [if_neg (by simp)]; exact h3
  · intro rest'
    unfold listingMain
    rw [if_neg (by simp)]; exact h4 rest'

/-- Concrete case: the second file is missing; the first is listed and the third is not. -/
example : (listingMain backFs 10 [py "B.arg", py "C.arg", py "A.arg"]).2 = .error .systemExit ∧
    ((listingMain backFs 10 [py "B.arg", py "C.arg", py "A.arg"]).1 (py "B.lst")).isSome = true ∧
    (listingMain backFs 10 [py "B.arg", py "C.arg", py "A.arg"]).1 (py "A.lst") = none := by
  decide +kernel

end H800
