import Verif.Lemmas.CrashPages
import Verif.Props.Idle

/-!
Property C225: running genpages again after runs that were stopped.
-/

namespace H800

open Spec

/-- C225, the property as stated: if genpages is stopped, any number of times, and then run again, this
run appends what the first one would have appended, and changes nothing else. -/
def C225_statement : Prop := ∀ (disk d : Disk) (n : Nat) (file : Str) (bytes : List UInt8),
  disk file = some (.file bytes) → (genpagesD disk n [file]).2 = .ok () →
  Interrupted (fun d => (genpagesE d n [file]).1) disk d →
  ∃ begun app d', d file = some (.file (bytes ++ begun)) ∧
    (genpagesD disk n [file]).1 file = some (.file (bytes ++ app)) ∧
    genpagesD d n [file] = (d', .ok ()) ∧ d' file = some (.file (bytes ++ begun ++ app)) ∧
    ∀ g, g ≠ file → d' g = disk g

/-- A source without log card. -/
def crashPages : Disk := fun f =>
  if f = py "a" then some (.file (encoded (py "# Filename: AB.arg\n# Pages: 1\n"))) else none

/-- C225 is false: stopped within the log card, genpages takes what there is of the name for the name of
the log section. -/
theorem C225_refuted : ¬ C225_statement := by
  intro h
  have h1 : (genpagesE crashPages 1 [py "a"]).1 = (genpagesE crashPages 1 [py "a"]).1.take 10 ++
      (genpagesE crashPages 1 [py "a"]).1.drop 10 := (List.take_append_drop _ _).symm
  obtain ⟨begun, app, d', g1, g2, g3, g4, -⟩ := h crashPages _ 1 (py "a") _ rfl (by decide +kernel)
    (.again .none ⟨_, _, h1, rfl⟩)
  have g5 : (genpagesD (((genpagesE crashPages 1 [py "a"]).1.take 10).foldl Effect.run crashPages) 1
      [py "a"]).1 (py "a") = d' (py "a") := by rw [g3]
  rw [g4] at g5
  have k1 : (((genpagesE crashPages 1 [py "a"]).1.take 10).foldl Effect.run crashPages) (py "a") =
      some (.file (encoded (py "# Filename: AB.arg\n# Pages: 1\n" ++ py "\nL      @A"))) := by
    decide +kernel
  have k2 : (genpagesD crashPages 1 [py "a"]).1 (py "a") = some (.file (encoded
      (py "# Filename: AB.arg\n# Pages: 1\n" ++
        (pagesLines (.str (py "@")) (py "AB") 1 1).flatten))) := by decide +kernel
  have k3 : (genpagesD (((genpagesE crashPages 1 [py "a"]).1.take 10).foldl Effect.run crashPages) 1
      [py "a"]).1 (py "a") = some (.file (encoded (py "# Filename: AB.arg\n# Pages: 1\n" ++
        py "\nL      @A" ++ (pagesLines (.str (py "@")) (py "A") 1 1).flatten))) := by decide +kernel
  rw [k1] at g1
  rw [k2] at g2
  rw [k3] at g5
  simp only [Option.some.injEq, Node.file.injEq, encoded_append, List.append_assoc] at g1 g2 g5
  have e1 := List.append_cancel_left g1
  have e2 := List.append_cancel_left g2
  rw [← e1, ← e2] at g5
  have e3 := List.append_cancel_left (List.append_cancel_left g5)
  revert e3
  decide +kernel

/-- C225, what holds: if the file had a log card from the beginning, and no character was cut off in the
middle, the next run appends what the first one would have appended. -/
theorem C225_log_card_partial (disk d : Disk) (n : Nat) (file s s' : Str)
    (hf : disk file = some (.file (encoded s))) (hok : (genpagesD disk n [file]).2 = .ok ())
    (hL : ∃ l ∈ readlines (universal s), l.head? = some 'L')
    (h : Interrupted (fun d => (genpagesE d n [file]).1) disk d)
    (hd : d file = some (.file (encoded s'))) :
    ∃ begun app d', s' = s ++ begun ∧
      (genpagesD disk n [file]).1 file = some (.file (encoded (s ++ app))) ∧
      genpagesD d n [file] = (d', .ok ()) ∧ d' file = some (.file (encoded (s' ++ app))) ∧
      ∀ g, g ≠ file → d' g = disk g := by
  rcases pages_run n disk file with ⟨e, -, h2⟩ | ⟨t, sec, col8, start, end_, h1, hi, hle, -, h2⟩
  · rw [h2] at hok; cases hok
  · rw [hf] at h1
    have : t = s := by
      simp only [Option.some.injEq, Node.file.injEq] at h1
      have := utf8Decode_iff.2 h1
      rw [utf8Decode_iff.2 rfl] at this
      exact (Option.some.inj this).symm
    subst this
    rcases pages_begun hf hi hle h with ⟨P, sec', col8', rfl, hx, hi', hL'⟩ | ⟨begun, rfl, hcut⟩
    · obtain ⟨rfl, rfl, -⟩ := hL' hL
      rw [putFile_self] at hd
      have hs' : s' = t ++ P := by
        simp only [Option.some.injEq, Node.file.injEq] at hd
        have := utf8Decode_iff.2 hd
        rw [utf8Decode_iff.2 rfl] at this
        exact (Option.some.inj this).symm
      subst hs'
      have h3 := (pages_writes (putFile_self disk file (encoded (t ++ P))) hi' hle).2
      refine ⟨P, _, _, rfl, by rw [h2]; exact putFile_self _ _ _, h3, putFile_self _ _ _, fun g hg => ?_⟩
      rw [putFile_ne hg, putFile_ne hg]
    · rw [putFile_self] at hd
      simp only [Option.some.injEq, Node.file.injEq] at hd
      rw [utf8Decode_iff.2 hd] at hcut
      cases hcut

/-- C225: in any case, if no character was cut off, the next run succeeds, and appends something, for the
same pages. -/
theorem C225_pages_partial (disk d : Disk) (n : Nat) (file s s' : Str)
    (hf : disk file = some (.file (encoded s))) (hok : (genpagesD disk n [file]).2 = .ok ())
    (h : Interrupted (fun d => (genpagesE d n [file]).1) disk d)
    (hd : d file = some (.file (encoded s'))) :
    ∃ begun app d' a b, s' = s ++ begun ∧ genpagesD d n [file] = (d', .ok ()) ∧
      d' file = some (.file (encoded (s' ++ app))) ∧ app ≠ [] ∧ (∀ g, g ≠ file → d' g = disk g) ∧
      LastPages (readlines (universal s)) a b ∧ LastPages (readlines (universal s')) a b := by
  rcases pages_run n disk file with ⟨e, -, h2⟩ | ⟨t, sec, col8, start, end_, h1, hi, hle, -, h2⟩
  · rw [h2] at hok; cases hok
  · rw [hf] at h1
    have : t = s := by
      simp only [Option.some.injEq, Node.file.injEq] at h1
      have := utf8Decode_iff.2 h1
      rw [utf8Decode_iff.2 rfl] at this
      exact (Option.some.inj this).symm
    subst this
    rcases pages_begun hf hi hle h with ⟨P, sec', col8', rfl, hx, hi', hL'⟩ | ⟨begun, rfl, hcut⟩
    · rw [putFile_self] at hd
      have hs' : s' = t ++ P := by
        simp only [Option.some.injEq, Node.file.injEq] at hd
        have := utf8Decode_iff.2 hd
        rw [utf8Decode_iff.2 rfl] at this
        exact (Option.some.inj this).symm
      subst hs'
      have h3 := (pages_writes (putFile_self disk file (encoded (t ++ P))) hi' hle).2
      have pages : ∀ {ls : List Str} {sec : Str} {v : RVal},
          pagesInfo (fun _ => none) n ls = .ok ⟨some sec, v, some (start, end_)⟩ →
          ∃ a b : Nat, (start, end_) = ((a : Int), (b : Int)) ∧ LastPages ls a b := by
        intro ls sec v hi
        rcases pagesInfo_cases (fun _ => none) n ls with ⟨-, e, he, -⟩ | ⟨-, x, w, p, he, -, hp⟩
        · rw [he] at hi; cases hi
        · rw [he] at hi
          cases hi
          rcases hp with ⟨hp, -⟩ | ⟨a, b, hp, hq⟩
          · cases hp
          · exact ⟨a, b, Option.some.inj hp, hq⟩
      obtain ⟨a, b, e1, p1⟩ := pages hi
      obtain ⟨a', b', e2, p2⟩ := pages hi'
      have e3 := e1.symm.trans e2
      simp only [Prod.mk.injEq, Int.natCast_inj] at e3
      obtain ⟨rfl, rfl⟩ := e3
      refine ⟨P, _, _, a, b, rfl, h3, putFile_self _ _ _, ?_, fun g hg => ?_, p1, p2⟩
      · rw [appended_flatten]; simp
      · rw [putFile_ne hg, putFile_ne hg]
    · rw [putFile_self] at hd
      simp only [Option.some.injEq, Node.file.injEq] at hd
      rw [utf8Decode_iff.2 hd] at hcut
      cases hcut

/-- C225: if a character was cut off, the next run ends with an error, and the file stays as it is. -/
theorem C225_cut_partial (d : Disk) (n : Nat) (file : Str) (bytes : List UInt8)
    (hd : d file = some (.file bytes)) (hcut : ∀ s, bytes ≠ encoded s) :
    genpagesD d n [file] = (d, .error .decode) := by
  have : utf8Decode bytes = none := by
    cases h : utf8Decode bytes with
    | none => rfl
    | some s => exact absurd (utf8Decode_iff.1 h) (hcut s)
  simp [genpagesD, hd, this]

/-- C225: with a file of ASCII characters that does not happen. -/
theorem C225_ascii_partial (disk d : Disk) (n : Nat) (file s : Str)
    (hf : disk file = some (.file (encoded s))) (hs : ∀ c ∈ s, c.toNat < 128)
    (h : Interrupted (fun d => (genpagesE d n [file]).1) disk d) :
    ∃ s', d file = some (.file (encoded s')) ∧ ∀ c ∈ s', c.toNat < 128 := by
  induction h with
  | none => exact ⟨s, hf, hs⟩
  | @again d d' h1 h2 ih =>
    obtain ⟨t, ht, hta⟩ := ih
    obtain ⟨done, rest, h3, rfl⟩ := h2
    rcases pages_run n d file with ⟨e, h4, -⟩ | ⟨t', sec, col8, start, end_, h5, hi, hle, h4, -⟩
    · rw [h4] at h3
      have : done = [] := (List.append_eq_nil_iff.1 h3.symm).1
      subst this
      exact ⟨t, ht, hta⟩
    · have : t' = t := by
        rw [ht] at h5
        simp only [Option.some.injEq, Node.file.injEq] at h5
        have := utf8Decode_iff.2 h5
        rw [utf8Decode_iff.2 rfl] at this
        exact (Option.some.inj this).symm
      subst this
      rw [h4] at h3
      obtain ⟨a, b, h6, rfl⟩ := appends_prefix h3
      obtain ⟨hsec, hcol⟩ := pagesInfo_sub hi (fun c => c.toNat < 128) (fun l hl c hc => by
        have hm : c ∈ universal t' := by
          rw [← flatten_readlines (universal t')]
          exact List.mem_flatten.2 ⟨l, hl, hc⟩
        rcases universal_mem hm with hm | rfl
        · exact hta c hm
        · decide) (by decide)
      have happ := pagesLines_ascii (hsec sec rfl) hcol start end_
      obtain ⟨P, rfl⟩ := encoded_ascii happ h6
      obtain ⟨Q, hQ, -⟩ := encoded_prefix h6.symm
      refine ⟨t' ++ P, ?_, fun c hc => ?_⟩
      · rw [appends_run _ ht, putFile_self, encoded_append]
      · rcases List.mem_append.1 hc with hc | hc
        · exact hta c hc
        · exact happ c (by rw [hQ]; exact List.mem_append_left _ hc)

/-- C225: at any moment, stopped or not, the reports of the other tools are as before (C132). -/
theorem C225_reports_partial (disk d : Disk) (chars chars' : FileSystem) (n : Nat) (file s s' : Str)
    (hf : disk file = some (.file (encoded s)))
    (h : Interrupted (fun d => (genpagesE d n [file]).1) disk d)
    (hd : d file = some (.file (encoded s'))) (hst : Stored disk chars) (hst' : Stored d chars') :
    SameCode (textFiles chars) (textFiles chars') := by
  obtain rfl := stored_iff.1 hst
  obtain rfl := stored_iff.1 hst'
  have dec : ∀ {a b : Str}, encoded a = encoded b → a = b := by
    intro a b hab
    have := utf8Decode_iff.2 hab
    rw [utf8Decode_iff.2 rfl] at this
    exact Option.some.inj this
  have key : (∀ g, g ≠ file → d g = disk g) ∧ Extends (readlines (universal s)) (readlines (universal s')) := by
    rcases pages_run n disk file with ⟨e, h1, -⟩ | ⟨t, sec, col8, start, end_, h1, hi, hle, -, -⟩
    · have : d = disk := by
        clear hd hst'
        induction h with
        | none => rfl
        | again h3 h4 ih =>
          subst ih
          obtain ⟨done, rest, h5, rfl⟩ := h4
          rw [h1] at h5
          have : done = [] := (List.append_eq_nil_iff.1 h5.symm).1
          subst this
          rfl
      subst this
      rw [hf] at hd
      simp only [Option.some.injEq, Node.file.injEq] at hd
      rw [dec hd]
      exact ⟨fun _ _ => rfl, extends_refl _⟩
    · rw [hf] at h1
      simp only [Option.some.injEq, Node.file.injEq] at h1
      obtain rfl := dec h1
      rcases pages_begun hf hi hle h with ⟨P, sec', col8', rfl, hx, hi', hL'⟩ | ⟨begun, rfl, hcut⟩
      · rw [putFile_self] at hd
        simp only [Option.some.injEq, Node.file.injEq] at hd
        rw [← dec hd]
        exact ⟨fun g hg => putFile_ne hg, hx⟩
      · rw [putFile_self] at hd
        simp only [Option.some.injEq, Node.file.injEq] at hd
        rw [utf8Decode_iff.2 hd] at hcut
        cases hcut
  intro g
  have h1 : textFiles (charsOf disk) file = some (universal s) := by
    simp [textFiles, charsOf, hf, utf8Decode_iff.2 rfl]
  have h2 : textFiles (charsOf d) file = some (universal s') := by
    simp [textFiles, charsOf, hd, utf8Decode_iff.2 rfl]
  by_cases hg : g = file
  · subst hg
    exact Or.inr ⟨_, _, h1, h2, key.2⟩
  · have : textFiles (charsOf d) g = textFiles (charsOf disk) g := by
      unfold textFiles charsOf
      rw [key.1 g hg]
    rw [this]
    cases ht : textFiles (charsOf disk) g with
    | none => exact Or.inl ⟨rfl, rfl⟩
    | some t => exact Or.inr ⟨t, t, rfl, rfl, extends_refl _⟩

/-- The example of C86, stopped in the second page, and again after the log card. -/
def crashLog : Disk := fun f => if f = py "A.arg" then some (.file (encoded pagesText)) else none

example : crashLog (py "A.arg") = some (.file (encoded pagesText)) ∧
    (genpagesD crashLog 1 [py "A.arg"]).2 = .ok () ∧
    (∃ l ∈ readlines (universal pagesText), l.head? = some 'L') ∧ (∀ c ∈ pagesText, c.toNat < 128) ∧
    ∃ d, Interrupted (fun d => (genpagesE d 1 [py "A.arg"]).1) crashLog d ∧ d ≠ crashLog := by
  refine ⟨rfl, by decide +kernel, ⟨py "L      @TEST\n", by decide +kernel, rfl⟩, by decide +kernel, ?_⟩
  refine ⟨_, .again (.again .none ⟨_, _, (List.take_append_drop 150 _).symm, rfl⟩)
    ⟨_, _, (List.take_append_drop 20 _).symm, rfl⟩, ?_⟩
  intro h
  have h1 := congrFun h (py "A.arg")
  revert h1
  decide +kernel

end H800
