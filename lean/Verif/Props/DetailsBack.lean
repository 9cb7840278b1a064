import Verif.Props.ListingBack
import Verif.Props.Tools

/-!
Property C148: list-instructions with `--details` shows where each instruction stands.
-/

namespace H800

open Spec

/-! ### Auxiliary facts -/

theorem lead_blank {m m' T T' : Str} {k k' : Nat} (h : ' ' ∉ m) (h' : ' ' ∉ m') (hm : m ≠ [])
    (hm' : m' ≠ []) (e : List.replicate k ' ' ++ m ++ T = List.replicate k' ' ' ++ m' ++ T') :
    m ++ T = m' ++ T' := by
  induction k generalizing k' with
  | zero =>
    cases k' with
    | zero => simpa using e
    | succ k' =>
      cases m with
      | nil => exact absurd rfl hm
      | cons c m =>
        simp only [List.replicate_zero, List.nil_append, List.cons_append, List.replicate_succ,
          List.cons.injEq] at e
        exact absurd (by rw [e.1]; simp) h
  | succ k ih =>
    cases k' with
    | zero =>
      cases m' with
      | nil => exact absurd rfl hm'
      | cons c m' =>
        simp only [List.replicate_zero, List.nil_append, List.cons_append, List.replicate_succ,
          List.cons.injEq] at e
        exact absurd (by rw [← e.1]; simp) h'
    | succ k' =>
      simp only [List.replicate_succ, List.cons_append, List.cons.injEq, true_and] at e
      exact ih e

/-- The line of a detailed list for a source line. -/
def DetailLine (s : Src) (l : Str) : Prop :=
  ∃ a b, LeftIn 48 s.file a ∧ RightIn 6 (numeral 10 s.num) b ∧
    l = a ++ ' ' :: b ++ ' ' :: s.text.filter (· ≠ '\n')

theorem detailLine_inj {s s' : Src} {l : Str} (h : DetailLine s l) (h' : DetailLine s' l)
    (ht : Tellable 48 s.file) (ht' : Tellable 48 s'.file) : seen s = seen s' := by
  obtain ⟨a, b, h1, ⟨k, rfl, -⟩, rfl⟩ := h
  obtain ⟨a', b', h1', ⟨k', rfl, -⟩, e⟩ := h'
  simp only [List.append_assoc, List.cons_append] at e
  obtain ⟨e1, e2⟩ := name_column h1 h1' ht ht' e
  have ne : ∀ n, numeral 10 n ≠ [] := fun n => (numeral_decimal n).1
  rw [← List.append_assoc, ← List.append_assoc] at e2
  have e3 := lead_blank (numeral_blank_free _).1 (numeral_blank_free _).1 (ne _) (ne _) e2
  obtain ⟨e4, e5⟩ := until_blank (numeral_blank_free _).1 (numeral_blank_free _).1 e3
  unfold seen
  rw [e1, numeral_inj e4, e5]

theorem detailLine_newline {s : Src} {l : Str} (h : DetailLine s l) (ht : Tellable 48 s.file) :
    '\n' ∉ l := by
  obtain ⟨a, b, ⟨k, rfl, -⟩, ⟨j, rfl, -⟩, rfl⟩ := h
  intro hc
  simp only [List.append_assoc, List.cons_append, List.mem_append, List.mem_cons,
    List.mem_replicate, List.mem_filter, decide_eq_true_eq] at hc
  rcases hc with hc | hc | hc | hc | hc | hc | hc
  · exact ht.1 hc
  · exact absurd hc.2 (by decide)
  · exact absurd hc (by decide)
  · exact absurd hc.2 (by decide)
  · exact (numeral_blank_free _).2 hc
  · exact absurd hc (by decide)
  · exact hc.2 rfl

/-- Lines without newline can be told from their text. -/
theorem text_lines_inj {ls ls' : List Str} (h : ∀ l ∈ ls, '\n' ∉ l) (h' : ∀ l ∈ ls', '\n' ∉ l)
    (e : (ls.flatMap fun l => l ++ ['\n']) = ls'.flatMap fun l => l ++ ['\n']) : ls = ls' := by
  have hn : ∀ ls : List Str, (∀ l ∈ ls, '\n' ∉ l) →
      readlines (ls.flatMap fun l => l ++ ['\n']) = ls.map (· ++ ['\n']) := by
    intro ls h
    rw [List.flatMap_def]
    apply readlines_lines
    intro l hl
    obtain ⟨t, htm, rfl⟩ := List.mem_map.1 hl
    exact ⟨t, rfl, h t htm⟩
  have e2 : ls.map (· ++ ['\n']) = ls'.map (· ++ ['\n']) := by
    rw [← hn ls h, ← hn ls' h', e]
  refine List.map_injective_iff.2 ?_ e2
  intro a b hab
  exact List.append_cancel_right hab

theorem sources_tellable {fs : FileSystem} {files : List Str} {out : List Src} {w : Nat}
    (h : Sources fs files out) (ht : ∀ f ∈ files, Tellable w f) : ∀ s ∈ out, Tellable w s.file := by
  obtain ⟨outs, ho, rfl⟩ := h
  induction ho with
  | nil => intro s hs; cases hs
  | cons h1 _ ih =>
    intro s hs
    rw [List.flatten_cons] at hs
    rcases List.mem_append.1 hs with hs | hs
    · exact expands_tellable h1 (ht _ List.mem_cons_self) s hs
    · exact ih (fun f hf => ht f (List.mem_cons_of_mem _ hf)) s hs

theorem detail_lines_inj {a b : List Src} {ls : List Str} (ha : List.Forall₂ DetailLine a ls)
    (hb : List.Forall₂ DetailLine b ls) (ta : ∀ s ∈ a, Tellable 48 s.file)
    (tb : ∀ s ∈ b, Tellable 48 s.file) : a.map seen = b.map seen := by
  induction ha generalizing b with
  | nil => cases hb; rfl
  | cons h1 _ ih =>
    cases hb with
    | cons h1' h2' =>
      rw [List.map_cons, List.map_cons, detailLine_inj h1 h1' (ta _ (by simp)) (tb _ (by simp)),
        ih h2' (fun s hs => ta s (List.mem_cons_of_mem _ hs))
          (fun s hs => tb s (List.mem_cons_of_mem _ hs))]

theorem forall₂_right {α β : Type} {R : α → β → Prop} {P : β → Prop} {xs : List α} {ys : List β}
    (h : List.Forall₂ R xs ys) (hp : ∀ x ∈ xs, ∀ y, R x y → P y) : ∀ y ∈ ys, P y := by
  induction h with
  | nil => intro y hy; cases hy
  | cons h1 _ ih =>
    intro y hy
    rcases List.mem_cons.1 hy with rfl | hy
    · exact hp _ List.mem_cons_self _ h1
    · exact ih (fun x hx => hp x (List.mem_cons_of_mem _ hx)) y hy

/-! ### C148 -/

open Classical in
/-- C148: if two detailed lists have the same text, they list the same instructions: the same texts,
on the same lines of files of the same names, in the same order. -/
theorem C148_details (fs gs : FileSystem) (m n : Nat) (o o' : Str) (files files' : List Str)
    (l l' : List Str) (hf : listInstructions fs m true (o :: files) = .ok l)
    (hg : listInstructions gs n true (o' :: files') = .ok l')
    (heq : (l.flatMap fun x => x ++ ['\n']) = l'.flatMap fun x => x ++ ['\n'])
    (tf : ∀ f ∈ files, Tellable 48 f) (tg : ∀ f ∈ files', Tellable 48 f) :
    ∃ a b, Sources fs files a ∧ Sources gs files' b ∧
      (a.filter fun s => decide (Matches o s)).map seen =
        (b.filter fun s => decide (Matches o' s)).map seen := by
  obtain ⟨a, ha, hl⟩ := C82_lists fs m true o files l hf
  obtain ⟨b, hb, hl'⟩ := C82_lists gs n true o' files' l' hg
  have ta : ∀ s ∈ a.filter (fun s => decide (Matches o s)), Tellable 48 s.file :=
    fun s hs => sources_tellable ha tf s (List.mem_filter.1 hs).1
  have tb : ∀ s ∈ b.filter (fun s => decide (Matches o' s)), Tellable 48 s.file :=
    fun s hs => sources_tellable hb tg s (List.mem_filter.1 hs).1
  have da : List.Forall₂ DetailLine (a.filter fun s => decide (Matches o s)) l :=
    hl.imp fun _ _ h => h.2 rfl
  have db : List.Forall₂ DetailLine (b.filter fun s => decide (Matches o' s)) l' :=
    hl'.imp fun _ _ h => h.2 rfl
  have el : l = l' := text_lines_inj
    (forall₂_right da fun s hs x hx => detailLine_newline hx (ta s hs))
    (forall₂_right db fun s hs x hx => detailLine_newline hx (tb s hs)) heq
  subst el
  exact ⟨a, b, ha, hb, detail_lines_inj da db ta tb⟩

/-- Without `--details` the claim would be false: the same text stands in two files. -/
example : let fs : FileSystem := fun _ => some (py "        B          TN\n")
    listInstructions fs 10 false [py "TN", py "A.arg"] =
      listInstructions fs 10 false [py "TN", py "B.arg"] ∧
    listInstructions fs 10 true [py "TN", py "A.arg"] ≠
      listInstructions fs 10 true [py "TN", py "B.arg"] := by
  refine ⟨by decide +kernel, by decide +kernel⟩

/-- Concrete case of the hypotheses: a file with an include and a comment. -/
example : listInstructions backFs 10 true [py "TN", py "A.arg"] = .ok
      [py "A.arg                                                 3         B          TN"] ∧
    ∀ f ∈ [py "A.arg"], Tellable 48 f := by
  refine ⟨by decide +kernel, ?_⟩
  intro f hf
  rw [List.mem_singleton] at hf
  subst hf
  exact ⟨by decide, Or.inl (by decide)⟩

end H800
