import Verif.Props.Help
import Verif.Spec.Rename

/-!
Property C212: new names for the tags of a program.
-/

namespace H800

open Spec

theorem label_unique {s : Src} {l l' : Str} (h : HasLabel s l) (h' : HasLabel s l') : l = l' :=
  Option.some.inj (((label_iff s l).2 h).symm.trans ((label_iff s l').2 h'))

theorem tagged_unique {upper : Str → Str} {s : Src} {tag tt tag' tt' : Str}
    (h : Tagged upper s tag tt) (h' : Tagged upper s tag' tt') : tag = tag' ∧ tt = tt' := by
  obtain ⟨l, h1, h2⟩ := h
  obtain ⟨l', h1', h2'⟩ := h'
  obtain rfl := label_unique h1 h1'
  have hs := (hasLabel_strip h1).1
  have e := ((goodLabel_iff upper hs tag tt).2 h2).symm.trans ((goodLabel_iff upper hs tag' tt').2 h2')
  simpa using e

theorem take_get {s s' : Str} (h : s'.take 8 = s.take 8) {n : Nat} (hn : n < 8) : s'[n]? = s[n]? := by
  have := congrArg (fun t => t[n]?) h
  simpa [hn] using this

section
variable {upper name : Str → Str} {s s' : Src}

theorem renamed_starred (h : RenamedLine upper name s s') : Starred s' ↔ Starred s := by
  unfold Starred
  rw [take_get h.2.2.1 (by omega)]

theorem renamed_prl (h : RenamedLine upper name s s') : PRL s'.text ↔ PRL s.text := by
  unfold PRL
  rw [List.head?_eq_getElem?, List.head?_eq_getElem?, take_get h.2.2.1 (by omega)]

theorem renamed_op (h : RenamedLine upper name s s') (o : Str) : HasOp s' o ↔ HasOp s o := by
  unfold HasOp columns
  rw [renamed_prl h, show 20 - 1 = 19 from rfl, h.2.2.2.1]

theorem renamed_lognum (h : RenamedLine upper name s s') : columns s'.text 2 8 = columns s.text 2 8 := by
  have e := congrArg (fun t => (t.drop 1).take 6) h.2.2.1
  simpa [columns, List.drop_take, List.take_take] using e

theorem renamed_tagged (h : RenamedLine upper name s s') (tag' tt : Str) :
    Tagged upper s' tag' tt ↔ ∃ tag, Tagged upper s tag tt ∧ tag' = name tag := by
  constructor
  · intro ht
    by_cases hs : ∃ tag tt, Tagged upper s tag tt
    · obtain ⟨tag, tt0, hs⟩ := hs
      obtain ⟨rfl, rfl⟩ := tagged_unique (h.2.2.2.2.2 tag tt0 hs) ht
      exact ⟨tag, hs, rfl⟩
    · have e := h.2.2.2.2.1 fun tag tt ht => hs ⟨tag, tt, ht⟩
      rw [e] at ht
      exact absurd ⟨_, _, ht⟩ hs
  · rintro ⟨tag, ht, rfl⟩
    exact h.2.2.2.2.2 tag tt ht

theorem renamed_sets (h : RenamedLine upper name s s') (sub : Str) : Sets s' sub ↔ Sets s sub := by
  unfold Sets
  simp only [renamed_starred h, renamed_op h]

/-- A line with a well-formed label is in error exactly if it has no operation. -/
theorem tagged_inError {tag tt : Str} (h : Tagged upper s tag tt) :
    InError upper s ↔ ¬ Starred s ∧ ∀ o, ¬ HasOp s o := by
  obtain ⟨l, h1, h2⟩ := h
  unfold InError
  constructor
  · rintro ⟨hs, l', h1', h | h⟩
    · obtain rfl := label_unique h1 h1'
      exact absurd h2 ((badLabel_iff upper l).1 h tag tt)
    · exact ⟨hs, h⟩
  · rintro ⟨hs, h⟩
    exact ⟨hs, l, h1, .inr h⟩

theorem renamed_inError (h : RenamedLine upper name s s') : InError upper s' ↔ InError upper s := by
  by_cases ht : ∃ tag tt, Tagged upper s tag tt
  · obtain ⟨tag, tt, ht⟩ := ht
    rw [tagged_inError ht, tagged_inError (h.2.2.2.2.2 tag tt ht), renamed_starred h]
    simp only [renamed_op h]
  · rw [h.2.2.2.2.1 fun tag tt h => ht ⟨tag, tt, h⟩]

end

section
variable {upper name : Str → Str}

theorem renamed_at {out out' : List Src} (h : List.Forall₂ (RenamedLine upper name) out out') (i : Nat) :
    (∀ s, out[i]? = some s → ∃ s', out'[i]? = some s' ∧ RenamedLine upper name s s') ∧
    ∀ s', out'[i]? = some s' → ∃ s, out[i]? = some s ∧ RenamedLine upper name s s' := by
  induction h generalizing i with
  | nil => simp
  | @cons a b l l' hab _ ih =>
    cases i with
    | zero => simpa using hab
    | succ i => simpa using ih i

theorem renamed_current {out out' : List Src} (h : List.Forall₂ (RenamedLine upper name) out out')
    (i : Nat) (sub : Str) : Current out' i sub ↔ Current out i sub := by
  have key : ∀ (lo : Nat), (∀ k s', lo ≤ k → k ≤ i → out'[k]? = some s' → ∀ sub', ¬ Sets s' sub') ↔
      ∀ k s, lo ≤ k → k ≤ i → out[k]? = some s → ∀ sub', ¬ Sets s sub' := by
    intro lo
    constructor
    · intro h1 k s hk hk' e sub' hs
      obtain ⟨s', e', hr⟩ := (renamed_at h k).1 s e
      exact h1 k s' hk hk' e' sub' ((renamed_sets hr sub').2 hs)
    · intro h1 k s' hk hk' e' sub' hs
      obtain ⟨s, e, hr⟩ := (renamed_at h k).2 s' e'
      exact h1 k s hk hk' e sub' ((renamed_sets hr sub').1 hs)
  unfold Current
  refine or_congr ?_ ?_
  · constructor
    · rintro ⟨j, s', hj, e', hs, h1⟩
      obtain ⟨s, e, hr⟩ := (renamed_at h j).2 s' e'
      exact ⟨j, s, hj, e, (renamed_sets hr sub).1 hs, (key (j + 1)).1 h1⟩
    · rintro ⟨j, s, hj, e, hs, h1⟩
      obtain ⟨s', e', hr⟩ := (renamed_at h j).1 s e
      exact ⟨j, s', hj, e', (renamed_sets hr sub).2 hs, (key (j + 1)).2 h1⟩
  · have := key 0
    simp only [Nat.zero_le, true_implies] at this
    rw [this]

theorem renamed_definesAt {out out' : List Src} (h : List.Forall₂ (RenamedLine upper name) out out')
    (i : Nat) (s' : Src) (tag' tt sub kind : Str) :
    DefinesAt upper out' i s' tag' tt sub kind ↔ ∃ s tag, RenamedLine upper name s s' ∧
      out'[i]? = some s' ∧ tag' = name tag ∧ DefinesAt upper out i s tag tt sub kind := by
  unfold DefinesAt
  simp only [renamed_current h]
  constructor
  · rintro ⟨e', hst, ht, ho, hc⟩
    obtain ⟨s, e, hr⟩ := (renamed_at h i).2 s' e'
    obtain ⟨tag, ht2, rfl⟩ := (renamed_tagged hr tag' tt).1 ht
    simp only [renamed_starred hr, renamed_op hr] at hst ho
    exact ⟨s, tag, hr, e', rfl, e, hst, ht2, ho, hc⟩
  · rintro ⟨s, tag, hr, e', rfl, e, hst, ht, ho, hc⟩
    simp only [renamed_starred hr, renamed_op hr]
    exact ⟨e', hst, hr.2.2.2.2.2 tag tt ht, ho, hc⟩

theorem renamedFiles_at {srcs srcs' : List (Str × List Src)} (h : RenamedFiles upper name srcs srcs')
    (k : Nat) :
    (∀ f out, srcs[k]? = some (f, out) →
      ∃ out', srcs'[k]? = some (f, out') ∧ List.Forall₂ (RenamedLine upper name) out out') ∧
    ∀ f out', srcs'[k]? = some (f, out') →
      ∃ out, srcs[k]? = some (f, out) ∧ List.Forall₂ (RenamedLine upper name) out out' := by
  unfold RenamedFiles at h
  induction h generalizing k with
  | nil => simp
  | @cons a b l l' hab _ ih =>
    obtain ⟨f, out⟩ := a
    obtain ⟨f', out'⟩ := b
    obtain ⟨rfl, hab⟩ := hab
    cases k with
    | zero => simpa using hab
    | succ k => simpa using ih k

theorem renamed_definedIn {srcs srcs' : List (Str × List Src)} (h : RenamedFiles upper name srcs srcs')
    {k i : Nat} :
    (∀ {s tag tt seg sub kind}, DefinedIn upper srcs k i s tag tt seg sub kind →
      ∃ s', RenamedLine upper name s s' ∧ DefinedIn upper srcs' k i s' (name tag) tt seg sub kind) ∧
    ∀ {s' tag' tt seg sub kind}, DefinedIn upper srcs' k i s' tag' tt seg sub kind →
      ∃ s tag, RenamedLine upper name s s' ∧ tag' = name tag ∧
        DefinedIn upper srcs k i s tag tt seg sub kind := by
  constructor
  · rintro s tag tt seg sub kind ⟨f, out, e, hb, hd⟩
    obtain ⟨out', e', hr⟩ := (renamedFiles_at h k).1 f out e
    obtain ⟨s', e2, hs⟩ := (renamed_at hr i).1 s hd.1
    exact ⟨s', hs, f, out', e', hb, (renamed_definesAt hr i s' _ tt sub kind).2
      ⟨s, tag, hs, e2, rfl, hd⟩⟩
  · rintro s' tag' tt seg sub kind ⟨f, out', e', hb, hd⟩
    obtain ⟨out, e, hr⟩ := (renamedFiles_at h k).2 f out' e'
    obtain ⟨s, tag, hs, e2, rfl, hd2⟩ := (renamed_definesAt hr i s' _ tt sub kind).1 hd
    exact ⟨s, tag, hs, rfl, f, out, e, hb, hd2⟩

theorem renamed_hasDef {srcs srcs' : List (Str × List Src)} (h : RenamedFiles upper name srcs srcs')
    (tag' kind : Str) :
    HasDef upper srcs' tag' kind ↔ ∃ tag, tag' = name tag ∧ HasDef upper srcs tag kind := by
  constructor
  · rintro ⟨k, i, s', tt, seg, sub, hd⟩
    obtain ⟨s, tag, -, rfl, hd2⟩ := (renamed_definedIn h).2 hd
    exact ⟨tag, rfl, k, i, s, tt, seg, sub, hd2⟩
  · rintro ⟨tag, rfl, k, i, s, tt, seg, sub, hd⟩
    obtain ⟨s', -, hd⟩ := (renamed_definedIn h).1 hd
    exact ⟨k, i, s', tt, seg, sub, hd⟩

theorem renamed_isDefined {srcs srcs' : List (Str × List Src)} (h : RenamedFiles upper name srcs srcs')
    (tag' : Str) : IsDefined upper srcs' tag' ↔ ∃ tag, tag' = name tag ∧ IsDefined upper srcs tag := by
  have e : ∀ srcs x, IsDefined upper srcs x ↔ ∃ kind, HasDef upper srcs x kind := fun srcs x =>
    ⟨fun ⟨k, i, s, tt, seg, sub, kind, hd⟩ => ⟨kind, k, i, s, tt, seg, sub, hd⟩,
      fun ⟨kind, k, i, s, tt, seg, sub, hd⟩ => ⟨k, i, s, tt, seg, sub, kind, hd⟩⟩
  simp only [e, renamed_hasDef h]
  constructor
  · rintro ⟨kind, tag, e, hd⟩; exact ⟨tag, e, kind, hd⟩
  · rintro ⟨tag, e, kind, hd⟩; exact ⟨kind, tag, e, hd⟩

theorem renamed_finalDef {srcs srcs' : List (Str × List Src)} (h : RenamedFiles upper name srcs srcs')
    (hi : Distinct upper name srcs) {k i : Nat} :
    (∀ {s tag tt seg sub kind}, FinalDef upper srcs k i s tag tt seg sub kind →
      ∃ s', RenamedLine upper name s s' ∧ FinalDef upper srcs' k i s' (name tag) tt seg sub kind) ∧
    ∀ {s' tag' tt seg sub kind}, FinalDef upper srcs' k i s' tag' tt seg sub kind →
      ∃ s tag, RenamedLine upper name s s' ∧ tag' = name tag ∧
        FinalDef upper srcs k i s tag tt seg sub kind := by
  constructor
  · rintro s tag tt seg sub kind ⟨hd, hl⟩
    obtain ⟨s', hs, hd'⟩ := (renamed_definedIn h).1 hd
    refine ⟨s', hs, hd', ?_⟩
    intro k' i' s2 tt' hlt hd2
    obtain ⟨s3, tag3, -, e, hd3⟩ := (renamed_definedIn h).2 hd2
    obtain rfl := hi _ _ ⟨_, _, _, _, _, _, _, hd⟩ ⟨_, _, _, _, _, _, _, hd3⟩ e
    exact hl k' i' s3 tt' hlt hd3
  · rintro s' tag' tt seg sub kind ⟨hd, hl⟩
    obtain ⟨s, tag, hs, rfl, hd'⟩ := (renamed_definedIn h).2 hd
    refine ⟨s, tag, hs, rfl, hd', ?_⟩
    intro k' i' s2 tt' hlt hd2
    obtain ⟨s3, -, hd3⟩ := (renamed_definedIn h).1 hd2
    exact hl k' i' s3 tt' hlt hd3

/-- Sorted lists whose elements correspond to each other correspond one by one. -/
theorem sorted_match {α β : Type} {R : α → α → Prop} {R' : β → β → Prop} {Q : α → β → Prop}
    (hasym : ∀ a b, R' a b → ¬ R' b a) :
    ∀ {l : List α} {l' : List β}, l.Pairwise R → l'.Pairwise R' → (∀ a ∈ l, ∃ b ∈ l', Q a b) →
      (∀ b ∈ l', ∃ a ∈ l, Q a b) →
      (∀ a ∈ l, ∀ b ∈ l, ∀ a' b', Q a a' → Q b b' → R a b → R' a' b') →
      (∀ a b b', Q a b → Q a b' → ¬ R' b b') → List.Forall₂ Q l l'
  | [], [], _, _, _, _, _, _ => .nil
  | [], b :: l', _, _, _, h2, _, _ => by
    obtain ⟨a, ha, -⟩ := h2 b List.mem_cons_self
    cases ha
  | a :: l, [], _, _, h1, _, _, _ => by
    obtain ⟨b, hb, -⟩ := h1 a List.mem_cons_self
    cases hb
  | a :: l, b :: l', hl, hl', h1, h2, h3, h4 => by
    rw [List.pairwise_cons] at hl hl'
    have hab : Q a b := by
      obtain ⟨a', ha', hq⟩ := h1 a List.mem_cons_self
      rcases List.mem_cons.1 ha' with rfl | ha'
      · exact hq
      · obtain ⟨b0, hb0, hq0⟩ := h2 b List.mem_cons_self
        rcases List.mem_cons.1 hb0 with rfl | hb0'
        · exact hq0
        · exact absurd (h3 a List.mem_cons_self b0 hb0 a' b hq hq0 (hl.1 b0 hb0'))
            (hasym _ _ (hl'.1 a' ha'))
    refine .cons hab (sorted_match hasym hl.2 hl'.2 ?_ ?_
      (fun x hx y hy => h3 x (List.mem_cons_of_mem _ hx) y (List.mem_cons_of_mem _ hy)) h4)
    · intro x hx
      obtain ⟨x', hx', hq⟩ := h1 x (List.mem_cons_of_mem _ hx)
      rcases List.mem_cons.1 hx' with rfl | hx'
      · have := h3 a List.mem_cons_self x (List.mem_cons_of_mem _ hx) _ _ hab hq (hl.1 x hx)
        exact absurd this (hasym _ _ this)
      · exact ⟨x', hx', hq⟩
    · intro y hy
      obtain ⟨x, hx, hq⟩ := h2 y (List.mem_cons_of_mem _ hy)
      rcases List.mem_cons.1 hx with rfl | hx
      · exact absurd (hl'.1 y hy) (h4 _ _ _ hab hq)
      · exact ⟨x, hx, hq⟩

theorem isEntry_eq {f : Str} {e : Option Str} (h : IsEntry f e) : e = PunchCard.entry f := by
  cases e with
  | none => exact (entry_none.2 h).symm
  | some t => exact (entry_some.2 ⟨stripped_iff.1 h.2, h.1⟩).symm

/-- A line with a well-formed label can only lack an operation. -/
theorem tagged_fault {s : Src} {tag tt l : Str} {e : SymErr} (h : Tagged upper s tag tt)
    (hf : Fault upper s e l) : e = .noOperation := by
  have hin := (C146_once upper s).1.2 ⟨e, l, hf⟩
  obtain ⟨hst, ho⟩ := (tagged_inError h).1 hin
  obtain ⟨l0, h1, h2⟩ := h
  exact ((C146_once upper s).2 _ _ .noOperation (l0.filter (· ≠ ' ')) hf
    ⟨hst, l0, h1, rfl, ⟨tag, tt, h2⟩, ho⟩).1

theorem renamed_report {s s' : Src} {d d' : Diag} (h : RenamedLine upper name s s')
    (hd : FaultReport upper s d) (hd' : FaultReport upper s' d') :
    RenamedReport (.diag d) (.diag d') := by
  obtain ⟨f1, f2, f3, f4, -, f5, -⟩ := hd
  obtain ⟨g1, g2, g3, g4, -, g5, -⟩ := hd'
  have e4 : d'.lognum = d.lognum := by
    rw [isEntry_eq f4, isEntry_eq g4, renamed_lognum h]
  refine ⟨?_, by rw [f2, g2, h.1], by rw [f3, g3, h.2.1], e4, ?_⟩
  all_goals
    by_cases ht : ∃ tag tt, Tagged upper s tag tt
  · obtain ⟨tag, tt, ht⟩ := ht
    rw [tagged_fault ht f1, tagged_fault (h.2.2.2.2.2 tag tt ht) g1]
  · rw [h.2.2.2.2.1 fun tag tt h => ht ⟨tag, tt, h⟩] at g1
    exact ((C146_once upper s).2 _ _ _ _ g1 f1).1
  · obtain ⟨tag, tt, ht⟩ := ht
    have ht' := h.2.2.2.2.2 tag tt ht
    rw [tagged_fault ht f1] at f5
    rw [tagged_fault ht' g1] at g5
    obtain ⟨l1, tag1, tt1, a1, a2, a3⟩ := f5
    obtain ⟨l2, tag2, tt2, b1, b2, b3⟩ := g5
    rw [a3, b3, (tagged_unique ⟨l1, a1, a2⟩ ht).2, (tagged_unique ⟨l2, b1, b2⟩ ht').2]
  · have hs := h.2.2.2.2.1 fun tag tt h => ht ⟨tag, tt, h⟩
    rw [hs] at g1
    have e := ((C146_once upper s).2 _ _ _ _ g1 f1).1
    rw [e] at g5
    cases he : d.err with
    | noOperation =>
      rw [he] at f5
      obtain ⟨l1, tag1, tt1, a1, a2, a3⟩ := f5
      exact absurd ⟨tag1, tt1, l1, a1, a2⟩ ht
    | _ =>
      rw [he] at f5 g5
      rw [f5, g5]

theorem renamed_fileReport {announce : Bool} {p p' : Str × List Src} {ms ms' : List SymMsg}
    (h : p'.1 = p.1 ∧ List.Forall₂ (RenamedLine upper name) p.2 p'.2)
    (hm : FileReport upper announce p ms) (hm' : FileReport upper announce p' ms') :
    List.Forall₂ RenamedReport ms ms' := by
  obtain ⟨ds, h1, rfl⟩ := hm
  obtain ⟨ds', h1', rfl⟩ := hm'
  obtain ⟨f, ls⟩ := p
  obtain ⟨f', ls'⟩ := p'
  obtain ⟨e, hr⟩ := h
  simp only at e hr h1 h1'
  have hf : List.Forall₂ (RenamedLine upper name)
      (@List.filter Src (fun s => @decide (InError upper s) (Classical.propDecidable _)) ls)
      (@List.filter Src (fun s => @decide (InError upper s) (Classical.propDecidable _)) ls') := by
    clear h1 h1'
    induction hr with
    | nil => exact .nil
    | @cons a b l l' hab _ ih =>
      by_cases ha : InError upper a
      · have hb := (renamed_inError hab).2 ha
        simpa [List.filter_cons, ha, hb] using ⟨hab, ih⟩
      · have hb : ¬ InError upper b := fun hb => ha ((renamed_inError hab).1 hb)
        simpa [List.filter_cons, ha, hb] using ih
  have hd : List.Forall₂ RenamedReport (ds.map .diag) (ds'.map .diag) := by
    clear hr e
    revert h1 h1' hf
    generalize @List.filter Src (fun s => @decide (InError upper s) (Classical.propDecidable _)) ls = a
    generalize @List.filter Src (fun s => @decide (InError upper s) (Classical.propDecidable _)) ls' = b
    intro h1 h1' hf
    clear * - h1 h1' hf
    induction hf generalizing ds ds' with
    | nil => cases h1; cases h1'; exact .nil
    | cons hab _ ih =>
      cases h1 with
      | cons x1 h1 =>
        cases h1' with
        | cons x2 h1' => exact .cons (renamed_report hab x1 x2) (ih _ _ h1 h1')
  have hlen : ds'.length = ds.length := by simpa using hd.length_eq.symm
  refine List.rel_append hd ?_
  cases announce
  · exact .nil
  · refine .cons ?_ .nil
    show SymMsg.fileErrs _ _ = _
    rw [e, hlen]

theorem renamed_fileReports {announce : Bool} {srcs srcs' : List (Str × List Src)}
    {rs rs' : List (List SymMsg)} (h : RenamedFiles upper name srcs srcs')
    (hm : List.Forall₂ (FileReport upper announce) srcs rs)
    (hm' : List.Forall₂ (FileReport upper announce) srcs' rs') :
    List.Forall₂ RenamedReport rs.flatten rs'.flatten := by
  unfold RenamedFiles at h
  induction h generalizing rs rs' with
  | nil => cases hm; cases hm'; exact .nil
  | cons hab _ ih =>
    cases hm with
    | cons x hm =>
      cases hm' with
      | cons x' hm' =>
        exact List.rel_append (renamed_fileReport hab x x') (ih hm hm')

theorem renamed_number {srcs srcs' : List (Str × List Src)} (h : RenamedFiles upper name srcs srcs') :
    number (srcs'.flatMap (·.2)) (InError upper) = number (srcs.flatMap (·.2)) (InError upper) := by
  unfold number RenamedFiles at *
  induction h with
  | nil => rfl
  | @cons p p' _ _ hab _ ih =>
    simp only [List.flatMap_cons, List.filter_append, List.length_append, ih]
    congr 1
    obtain ⟨f, ls⟩ := p
    obtain ⟨f', ls'⟩ := p'
    have hr : List.Forall₂ (RenamedLine upper name) ls ls' := hab.2
    clear hab
    induction hr with
    | nil => rfl
    | @cons a b l l' hab _ ih =>
      by_cases ha : InError upper a
      · have hb := (renamed_inError hab).2 ha
        simpa [List.filter_cons, ha, hb] using ih
      · have hb : ¬ InError upper b := fun hb => ha ((renamed_inError hab).1 hb)
        simpa [List.filter_cons, ha, hb] using ih

theorem before_asymm (a b : Row) (h : a.Before b) : ¬ b.Before a := by
  unfold Row.Before at *
  rintro h'
  rcases h with h | ⟨e1, h | ⟨e2, h | ⟨e3, h⟩⟩⟩ <;>
    rcases h' with h' | ⟨e1', h' | ⟨e2', h' | ⟨e3', h'⟩⟩⟩ <;>
    first
      | exact strLt_asymm h h'
      | exact h.2 (by first | exact e1'.symm | exact e2'.symm | exact e3'.symm)
      | exact h'.2 (by first | exact e1.symm | exact e2.symm | exact e3.symm)

theorem renamed_rows {srcs srcs' : List (Str × List Src)} {l l' : List ListLine}
    (h : RenamedFiles upper name srcs srcs') (hi : Distinct upper name srcs)
    (hl : RowsAre upper srcs l) (hl' : RowsAre upper srcs' l') :
    (∀ r ∈ rows [] [] [] l, ∃ r' ∈ rows [] [] [] l', RenamedRow upper name r r') ∧
    (∀ r' ∈ rows [] [] [] l', ∃ r ∈ rows [] [] [] l, RenamedRow upper name r r') ∧
    (InOrder upper name srcs → List.Forall₂ (RenamedRow upper name) (rows [] [] [] l) (rows [] [] [] l')) ∧
    ∀ n, ListLine.errors n ∈ l ↔ ListLine.errors n ∈ l' := by
  obtain ⟨s1, m1, n1⟩ := hl
  obtain ⟨s2, m2, n2⟩ := hl'
  have a1 : ∀ r ∈ rows [] [] [] l, ∃ r' ∈ rows [] [] [] l', RenamedRow upper name r r' := by
    intro r hr
    obtain ⟨k, i, s, hd, hb, hn, hc⟩ := (m1 r).1 hr
    obtain ⟨s', hs, hd'⟩ := (renamed_finalDef h hi).1 hd
    refine ⟨⟨name r.tag, r.seg, r.sub, r.kind, r.tagtype, r.file, r.line,
      s'.text.filter (· ≠ '\n')⟩, (m2 _).2 ⟨k, i, s', hd', ?_, ?_, rfl⟩,
      ⟨s, s', hs, hc, rfl⟩, rfl, rfl, rfl, rfl, rfl, rfl, rfl⟩
    · show BeforeFirst '.' s'.file r.file
      rw [hs.1]; exact hb
    · show r.line = _
      rw [hn, hs.2.1]
  have a2 : ∀ r' ∈ rows [] [] [] l', ∃ r ∈ rows [] [] [] l, RenamedRow upper name r r' := by
    intro r' hr'
    obtain ⟨k, i, s', hd', hb, hn, hc⟩ := (m2 r').1 hr'
    obtain ⟨s, tag, hs, e, hd⟩ := (renamed_finalDef h hi).2 hd'
    refine ⟨⟨tag, r'.seg, r'.sub, r'.kind, r'.tagtype, r'.file, r'.line,
      s.text.filter (· ≠ '\n')⟩, (m1 _).2 ⟨k, i, s, hd, ?_, ?_, rfl⟩,
      ⟨s, s', hs, rfl, hc⟩, e, rfl, rfl, rfl, rfl, rfl, rfl⟩
    · show BeforeFirst '.' s.file r'.file
      rw [← hs.1]; exact hb
    · show r'.line = _
      rw [hn, hs.2.1]
  refine ⟨a1, a2, fun ho => ?_, fun n => by rw [n1, n2, renamed_number h]⟩
  have hdef : ∀ r ∈ rows [] [] [] l, IsDefined upper srcs r.tag := by
    intro r hr
    obtain ⟨k, i, s, hd, -⟩ := (m1 r).1 hr
    exact ⟨_, _, _, _, _, _, _, hd.1⟩
  refine sorted_match before_asymm s1 s2 a1 a2 ?_ ?_
  · rintro a ha b hb a' b' ⟨-, p1, p2, p3, p4, -⟩ ⟨-, q1, q2, q3, q4, -⟩ hab
    unfold Row.Before at *
    rw [p1, p2, p3, p4, q1, q2, q3, q4]
    rcases hab with hab | ⟨e, hab⟩
    · exact .inl (ho _ _ (hdef a ha) (hdef b hb) hab)
    · exact .inr ⟨by rw [e], hab⟩
  · rintro a b b' ⟨-, p1, p2, p3, p4, -⟩ ⟨-, q1, q2, q3, q4, -⟩ hab
    unfold Row.Before StrLt at hab
    rw [p1, p2, p3, p4, q1, q2, q3, q4] at hab
    rcases hab with hab | ⟨-, hab | ⟨-, hab | ⟨-, hab⟩⟩⟩ <;> exact hab.2 rfl

theorem errorCounts_append (a b : List SymMsg) :
    errorCounts (a ++ b) = errorCounts a ++ errorCounts b :=
  List.filterMap_append

theorem renamed_counts {a b : List SymMsg} (h : List.Forall₂ RenamedReport a b) :
    errorCounts b = errorCounts a := by
  induction h with
  | nil => rfl
  | @cons x y l l' hxy _ ih =>
    rw [show x :: l = [x] ++ l from rfl, show y :: l' = [y] ++ l' from rfl, errorCounts_append,
      errorCounts_append, ih]
    congr 1
    cases x with
    | diag d => cases y with
      | diag d' => rfl
      | _ => exact hxy.elim
    | fileErrs f n => rw [show y = _ from hxy]
    | _ => exact hxy.elim

theorem counts_complex (l : List (Str × List Str)) :
    errorCounts (l.map (fun p => SymMsg.complexOnly p.1)) = [] := by
  induction l with
  | nil => rfl
  | cons p l ih => exact ih

theorem counts_matches (l : List (Str × List Str)) : errorCounts (l.map (fun p =>
    if p.2 = [] then SymMsg.noMatches p.1 else .matches_ p.1 p.2)) = [] := by
  induction l with
  | nil => rfl
  | cons p l ih =>
    rw [List.map_cons, show ∀ (x : SymMsg) l, x :: l = [x] ++ l from fun _ _ => rfl,
      errorCounts_append, ih]
    by_cases hp : p.2 = []
    · rw [if_pos hp]; rfl
    · rw [if_neg hp]; rfl

theorem counts_undefined (l : List (Str × List Str)) [Decidable (l = [])] :
    errorCounts (if l = [] then [] else .undefinedHeader :: l.map (fun p =>
      if p.2 = [] then SymMsg.noMatches p.1 else .matches_ p.1 p.2) ++ [.checkErrs l.length]) =
    if l.length = 0 then [] else [l.length] := by
  by_cases hl : l = []
  · rw [if_pos hl]; subst hl; rfl
  · have : l.length ≠ 0 := by simpa using hl
    rw [if_neg hl, if_neg this, errorCounts_append, show ∀ (x : SymMsg) l, x :: l = [x] ++ l
      from fun _ _ => rfl, errorCounts_append, counts_matches]
    rfl

theorem counts_check (r : List SymMsg) (l : List (Str × List Str)) [Decidable (l = [])] (b : Prop)
    [Decidable b] (n : Nat) :
    errorCounts (r ++ l.map (fun p => .complexOnly p.1) ++
      (if l = [] then [] else .undefinedHeader :: l.map (fun p =>
        if p.2 = [] then SymMsg.noMatches p.1 else .matches_ p.1 p.2) ++ [.checkErrs l.length]) ++
      if b then [.total n] else []) =
    errorCounts r ++ (if l.length = 0 then [] else [l.length]) ++ if b then [n] else [] := by
  rw [errorCounts_append, errorCounts_append, errorCounts_append, counts_complex, counts_undefined,
    List.append_nil]
  congr 1
  by_cases h : b
  · rw [if_pos h, if_pos h]; rfl
  · rw [if_neg h, if_neg h]; rfl

/-- C212: if tags get new names, and tags that are defined and differ get names that differ, then
list-symbols reports the same errors for the same lines, and lists the same definitions under the new
names; in the same sequence, if the new names are in the order of the old ones. -/
theorem C212_list (fs fs' : FileSystem) (argv files : List Str) (os : List Opt)
    (srcs srcs' : List (Str × List Src)) (hm : Means VERBOSE_OPTS argv os files)
    (hh : ¬ ∃ o ∈ os, o.dest = none) (hf : files ≠ []) (hne : ∀ f ∈ files, f ≠ [])
    (hp : PlainFiles files) (hr : Read fs files srcs) (hr' : Read fs' files srcs')
    (h : RenamedFiles upper name srcs srcs') (hi : Distinct upper name srcs) :
    ∃ n, ∀ m, n ≤ m → ∃ out out' rs rs' l l', listSymbolsCmd upper fs m argv = (out, .ok ()) ∧
      listSymbolsCmd upper fs' m argv = (out', .ok ()) ∧
      out.filterMap usual = rs ++ l.map .listing ∧ out'.filterMap usual = rs' ++ l'.map .listing ∧
      List.Forall₂ RenamedReport rs rs' ∧
      (∀ r ∈ rows [] [] [] l, ∃ r' ∈ rows [] [] [] l', RenamedRow upper name r r') ∧
      (∀ r' ∈ rows [] [] [] l', ∃ r ∈ rows [] [] [] l, RenamedRow upper name r r') ∧
      (InOrder upper name srcs →
        List.Forall₂ (RenamedRow upper name) (rows [] [] [] l) (rows [] [] [] l')) ∧
      ∀ n, ListLine.errors n ∈ l ↔ ListLine.errors n ∈ l' := by
  obtain ⟨n, hn⟩ := C164_list upper fs argv files os srcs hm hh hf hne hp hr
  obtain ⟨n', hn'⟩ := C164_list upper fs' argv files os srcs' hm hh hf hne hp hr'
  refine ⟨max n n', fun m hm => ?_⟩
  obtain ⟨out, rs, l, e, a1, a2, a3, -⟩ := hn m (by omega)
  obtain ⟨out', rs', l', e', b1, b2, b3, -⟩ := hn' m (by omega)
  exact ⟨out, out', _, _, l, l', e, e', a3, b3, renamed_fileReports h a1 b1, renamed_rows h hi a2 b2⟩

/-- What check-symbols prints after the symbols with complex definitions only are suggestions and
counts. -/
theorem noReport_more (und : List (Str × List Str)) (p : Prop) [Decidable p] (k : Nat) :
    ∀ msg ∈ (if und = [] then [] else SymMsg.undefinedHeader :: und.map (fun p =>
          if p.2 = [] then .noMatches p.1 else .matches_ p.1 p.2) ++ [.checkErrs und.length]) ++
        (if p then [.total k] else []),
      ∀ d f k x, msg ≠ .diag d ∧ msg ≠ .fileErrs f k ∧ msg ≠ .complexOnly x := by
  intro msg h d f k x
  rw [List.mem_append] at h
  rcases h with h | h
  · split at h
    · cases h
    · simp only [List.cons_append, List.mem_cons, List.mem_append, List.mem_map, List.not_mem_nil,
        or_false] at h
      rcases h with rfl | ⟨q, -, rfl⟩ | rfl
      · simp
      · split <;> simp
      · simp
  · split at h
    · rw [List.mem_singleton] at h
      subst h
      simp
    · cases h

/-- C212: then check-symbols reports the same errors and numbers of errors, and the new names of the same
symbols as having complex definitions only; in the same sequence, if the new names are in the order of the
old ones. The suggestions are left out, as they depend on the fuzzy search. -/
theorem C212_check (extract : Str → List Str → Nat → List Str) (fs fs' : FileSystem)
    (argv files : List Str) (os : List Opt)
    (srcs srcs' : List (Str × List Src)) (hm : Means CHECK_SYMBOLS_OPTS argv os files)
    (hh : ¬ ∃ o ∈ os, o.dest = none) (hf : files ≠ []) (hne : ∀ f ∈ files, f ≠ [])
    (hp : PlainFiles files) (hr : Read fs files srcs) (hr' : Read fs' files srcs')
    (h : RenamedFiles upper name srcs srcs') (hi : Distinct upper name srcs) :
    ∃ n, ∀ m, n ≤ m → ∃ (out out' : _) (rs rs' : _) (xs xs' : List Str) (more more' : _),
      checkSymbolsCmd upper extract fs m argv = (out, .ok ()) ∧
      checkSymbolsCmd upper extract fs' m argv = (out', .ok ()) ∧
      out.filterMap usual = rs ++ xs.map .complexOnly ++ more ∧
      out'.filterMap usual = rs' ++ xs'.map .complexOnly ++ more' ∧
      List.Forall₂ RenamedReport rs rs' ∧ xs'.Perm (xs.map name) ∧
      (InOrder upper name srcs → xs' = xs.map name) ∧
      (∀ msg ∈ more ++ more', ∀ d f k x, msg ≠ .diag d ∧ msg ≠ .fileErrs f k ∧ msg ≠ .complexOnly x) ∧
      errorCounts (out'.filterMap usual) = errorCounts (out.filterMap usual) := by
  obtain ⟨n, hn⟩ := C164_check upper extract fs argv files os srcs hm hh hf hne hp hr
  obtain ⟨n', hn'⟩ := C164_check upper extract fs' argv files os srcs' hm hh hf hne hp hr'
  refine ⟨max n n', fun m hm => ?_⟩
  obtain ⟨out, rs, und, e, a1, a2, a3, -, a4, -⟩ := hn m (by omega)
  obtain ⟨out', rs', und', e', b1, b2, b3, -, b4, -⟩ := hn' m (by omega)
  have hmem : ∀ x', x' ∈ und'.map (·.1) ↔ ∃ x ∈ und.map (·.1), x' = name x := by
    intro x'
    simp only [a3, b3, renamed_hasDef h]
    constructor
    · rintro ⟨hg, ⟨x, rfl, hx⟩, hs⟩
      exact ⟨x, ⟨hg, hx, fun hx' => hs ⟨x, rfl, hx'⟩⟩, rfl⟩
    · rintro ⟨x, ⟨hg, hx, hs⟩, rfl⟩
      refine ⟨hg, ⟨x, rfl, hx⟩, ?_⟩
      rintro ⟨y, e, hy⟩
      obtain ⟨k, i, s, tt, seg, sub, hx⟩ := hx
      have hy' := hy
      obtain ⟨k', i', s', tt', seg', sub', hy⟩ := hy
      obtain rfl := hi x y ⟨_, _, _, _, _, _, _, hx⟩ ⟨_, _, _, _, _, _, _, hy⟩ e
      exact hs hy'
  have hnd : (und.map (·.1)).Nodup := a2.imp fun h => h.2
  have hnd' : (und'.map (·.1)).Nodup := b2.imp fun h => h.2
  have hdef : ∀ x ∈ und.map (·.1), IsDefined upper srcs x := by
    intro x hx
    obtain ⟨-, ⟨k, i, s, tt, seg, sub, hx⟩, -⟩ := (a3 x).1 hx
    exact ⟨_, _, _, _, _, _, _, hx⟩
  have hperm : (und'.map (·.1)).Perm ((und.map (·.1)).map name) := by
    rw [List.perm_ext_iff_of_nodup hnd' (hnd.map_on fun x hx y hy e =>
      hi x y (hdef x hx) (hdef y hy) e)]
    intro x'
    rw [hmem, List.mem_map]
    exact ⟨fun ⟨x, h1, h2⟩ => ⟨x, h1, h2.symm⟩, fun ⟨x, h1, h2⟩ => ⟨x, h1, h2.symm⟩⟩
  have hlen : und'.length = und.length := by simpa using hperm.length_eq
  refine ⟨out, out', rs.flatten, rs'.flatten, und.map (·.1), und'.map (·.1), _, _, e, e',
    by rw [a4, List.map_map, List.append_assoc]; rfl, by rw [b4, List.map_map, List.append_assoc]; rfl,
    renamed_fileReports h a1 b1, hperm, ?_, ?_, ?_⟩
  · intro ho
    have hf := sorted_match (R := StrLt) (R' := StrLt) (Q := fun x x' => x' = name x)
      (fun a b h h' => strLt_asymm h h') a2 b2 (fun x hx => ⟨name x, (hmem _).2 ⟨x, hx, rfl⟩, rfl⟩)
      (fun x' hx' => (hmem x').1 hx') (by
        rintro x hx y hy _ _ rfl rfl hxy
        exact ho x y (hdef x hx) (hdef y hy) hxy) (by
        rintro x _ _ rfl rfl hxy
        exact hxy.2 rfl)
    generalize und.map (·.1) = l at hf
    generalize und'.map (·.1) = l' at hf
    induction hf with
    | nil => rfl
    | cons e _ ih => rw [e, List.map_cons, ih]
  · rw [List.forall_mem_append]
    exact ⟨noReport_more _ _ _, noReport_more _ _ _⟩
  · rw [a4, b4, counts_check, counts_check, renamed_counts (renamed_fileReports h a1 b1), hlen,
      renamed_number h]

/-- C212: find-symbols, searching for one symbol, and for its new name in the renamed files (a symbol
that is not defined may be searched for by any name that is not the new name of another): either both
are undefined, or the definitions that are shown are those of the renamed lines. -/
theorem C212_find (extract : Str → List Str → Nat → List Str) (fs fs' : FileSystem)
    (argv argv' files : List Str) (os : List Opt) (symbol symbol' : Str)
    (srcs srcs' : List (Str × List Src)) (hm : Means FIND_SYMBOLS_OPTS argv os (symbol :: files))
    (hm' : Means FIND_SYMBOLS_OPTS argv' os (symbol' :: files)) (hc : ¬ Conflict os)
    (hh : ¬ ∃ o ∈ os, o.dest = none) (hb : ¬ Given os (py "begin")) (hb' : ¬ Given os (py "end"))
    (hz : ¬ Given os (py "fuzzy")) (hf : files ≠ []) (hne : ∀ f ∈ files, f ≠ [])
    (hp : PlainFiles files) (hr : Read fs files srcs) (hr' : Read fs' files srcs')
    (h : RenamedFiles upper name srcs srcs') (hi : Distinct upper name srcs)
    (hs : ∀ x, IsDefined upper srcs x → (name x = symbol' ↔ x = symbol)) :
    ∃ n, ∀ m, n ≤ m → ∃ out out' rs rs' ans ans',
      findSymbolsCmd upper extract fs m argv = (out, .ok ()) ∧
      findSymbolsCmd upper extract fs' m argv' = (out', .ok ()) ∧
      out.filterMap usual = rs ++ [ans] ∧ out'.filterMap usual = rs' ++ [ans'] ∧
      List.Forall₂ RenamedReport rs rs' ∧
      ((ans = .undefined symbol ∧ ans' = .undefined symbol') ∨
       ∃ d d', ans = .found (.defs d) ∧ ans' = .found (.defs d') ∧
        (∀ seg sub kind e, Recorded [(symbol, d)] symbol seg sub kind e →
          ∃ e' s s' tt, Recorded [(symbol', d')] symbol' seg sub kind e' ∧
            RenamedLine upper name s s' ∧ Describes s tt e ∧ Describes s' tt e') ∧
        (∀ seg sub kind e', Recorded [(symbol', d')] symbol' seg sub kind e' →
          ∃ e s s' tt, Recorded [(symbol, d)] symbol seg sub kind e ∧
            RenamedLine upper name s s' ∧ Describes s tt e ∧ Describes s' tt e')) := by
  obtain ⟨n, hn⟩ := (C164_find upper extract fs argv _ os hm hh).2 symbol files srcs hc rfl hf hne hp hr
  obtain ⟨n', hn'⟩ :=
    (C164_find upper extract fs' argv' _ os hm' hh).2 symbol' files srcs' hc rfl hf hne hp hr'
  refine ⟨max n n', fun m hm => ?_⟩
  obtain ⟨out, rs, tail, e, a1, a2, a3, -⟩ := hn m (by omega)
  obtain ⟨out', rs', tail', e', b1, b2, b3, -⟩ := hn' m (by omega)
  have hdef : IsDefined upper srcs' symbol' ↔ IsDefined upper srcs symbol := by
    rw [renamed_isDefined h]
    constructor
    · rintro ⟨x, e, hx⟩
      exact (hs x hx).1 e.symm ▸ hx
    · exact fun hx => ⟨symbol, ((hs _ hx).2 rfl).symm, hx⟩
  have hrep := renamed_fileReports h a1 b1
  rcases a3 hb hb' hz with ⟨d, rfl, hd⟩ | ⟨rfl, hd⟩ <;>
    rcases b3 hb hb' hz with ⟨d', rfl, hd'⟩ | ⟨rfl, hd'⟩
  · have hx : IsDefined upper srcs symbol := by
      obtain ⟨k, i, s, tt, seg, sub, kind, hx⟩ := hd.1
      exact ⟨_, _, _, _, _, _, _, hx.1⟩
    have hsym : name symbol = symbol' := (hs _ hx).2 rfl
    refine ⟨out, out', _, _, _, _, e, e', a2, b2, hrep, .inr ⟨d, d', rfl, rfl, ?_, ?_⟩⟩
    · intro seg sub kind e hrec
      obtain ⟨k, i, s, tt, hfd, hde⟩ := hd.2.1 seg sub kind e hrec
      obtain ⟨s', hs', hfd'⟩ := (renamed_finalDef h hi).1 hfd
      rw [hsym] at hfd'
      obtain ⟨e', hrec', hde'⟩ := hd'.2.2 k i s' tt seg sub kind hfd'
      exact ⟨e', s, s', tt, hrec', hs', hde, hde'⟩
    · intro seg sub kind e' hrec'
      obtain ⟨k, i, s', tt, hfd', hde'⟩ := hd'.2.1 seg sub kind e' hrec'
      obtain ⟨s, tag, hs', et, hfd⟩ := (renamed_finalDef h hi).2 hfd'
      obtain rfl := (hs tag ⟨_, _, _, _, _, _, _, hfd.1⟩).1 et.symm
      obtain ⟨e, hrec, hde⟩ := hd.2.2 k i s tt seg sub kind hfd
      exact ⟨e, s, s', tt, hrec, hs', hde, hde'⟩
  · obtain ⟨k, i, s, tt, seg, sub, kind, hx⟩ := hd.1
    exact absurd (hdef.2 ⟨_, _, _, _, _, _, _, hx.1⟩) hd'
  · obtain ⟨k, i, s, tt, seg, sub, kind, hx⟩ := hd'.1
    exact absurd (hdef.1 ⟨_, _, _, _, _, _, _, hx.1⟩) hd
  · exact ⟨out, out', _, _, _, _, e, e', a2, b2, hrep, .inl ⟨rfl, rfl⟩⟩

end

theorem tagged_of {upper : Str → Str} {s : Src} {l tag tt : Str} (h : (srcCard s).label = some l)
    (hc : checkLabel upper (cleanLabel l) = .ok (tag, tt)) : Tagged upper s tag tt := by
  have hl := (label_iff s l).1 h
  exact ⟨l, hl, (goodLabel_iff upper (hasLabel_strip hl).1 tag tt).1 hc⟩

/-- The file with the new name `TOP` of `TAB`. -/
def topFs : FileSystem := fun f =>
  if f = py "A.arg" then some (py "        TOP        TN\n") else none

/-- Its line. -/
def topA : List Src := [⟨py "A.arg", 1, py "        TOP        TN\n"⟩]

/-- `TAB` becomes `TOP`. -/
def topName (tag : Str) : Str := if tag = py "TAB" then py "TOP" else tag

theorem topFs_read : Read topFs [py "A.arg"] [(py "A.arg", topA)] := by
  refine ⟨rfl, fun p hp => ?_⟩
  simp only [List.mem_cons, List.not_mem_nil, or_false] at hp
  subst hp
  refine ⟨_, rfl, ?_⟩
  have : ∀ {text : Str} (ls : List Str), readlines text = ls →
      Expand topFs (py "A.arg") 1 ls topA →
      Expand topFs (py "A.arg") 1 (readlines text) topA := fun ls h1 h2 => h1 ▸ h2
  refine this (topA.map (·.text)) (by decide) ?_
  exact .plain (by decide) (by decide) (.nil _ _)

theorem tab_tagged : Tagged asciiUpper tabsA[0] (py "TAB") (py " ") := tagged_of (l := py "TAB") rfl rfl

theorem top_renamed : RenamedFiles asciiUpper topName [(py "A.arg", tabsA)] [(py "A.arg", topA)] := by
  refine .cons ⟨rfl, .cons ⟨rfl, rfl, rfl, rfl, fun h => absurd tab_tagged (h _ _), ?_⟩ .nil⟩ .nil
  intro tag tt h
  obtain ⟨rfl, rfl⟩ := tagged_unique tab_tagged h
  exact tagged_of (l := py "TOP") rfl rfl

theorem tabs_defined {x : Str} (h : IsDefined asciiUpper [(py "A.arg", tabsA)] x) : x = py "TAB" := by
  obtain ⟨k, i, s, tt, seg, sub, kind, f, out, hk, -, hi, -, ht, -⟩ := h
  have hk0 : k = 0 := by
    obtain ⟨hlt, -⟩ := List.getElem?_eq_some_iff.1 hk
    simpa using hlt
  subst hk0
  simp only [List.getElem?_cons_zero, Option.some.injEq, Prod.mk.injEq] at hk
  obtain ⟨-, rfl⟩ := hk
  have hi0 : i = 0 := by
    obtain ⟨hlt, -⟩ := List.getElem?_eq_some_iff.1 hi
    simpa [tabsA] using hlt
  subst hi0
  obtain rfl : tabsA[0] = s := by simpa [tabsA] using hi
  exact (tagged_unique ht tab_tagged).1

/-- A file in which `TAB` becomes `TOP`: the listings differ in the name. -/
example : ∃ n, ∀ m, n ≤ m → ∃ out out' rs rs' l l',
    listSymbolsCmd asciiUpper tabsFs m [py "A.arg"] = (out, .ok ()) ∧
    listSymbolsCmd asciiUpper topFs m [py "A.arg"] = (out', .ok ()) ∧
    out.filterMap usual = rs ++ l.map .listing ∧ out'.filterMap usual = rs' ++ l'.map .listing ∧
    List.Forall₂ RenamedReport rs rs' ∧
    List.Forall₂ (RenamedRow asciiUpper topName) (rows [] [] [] l) (rows [] [] [] l') := by
  obtain ⟨files, -, -, -, -, -, -, hp, hr⟩ := tabsFs_search (py "TAB") (Or.inr (by decide))
  obtain ⟨n, hn⟩ := C212_list (upper := asciiUpper) (name := topName) tabsFs topFs [py "A.arg"]
    [py "A.arg"] [] _ _ (.plain (Or.inr (by decide)) .done) (by simp) (by simp) (by simp)
    (by
      rw [plainFiles_iff]
      intro f hf
      simp only [List.mem_cons, List.not_mem_nil, or_false] at hf
      subst hf
      unfold PlainSeg; decide)
    ⟨rfl, hr.2⟩ topFs_read top_renamed
    (fun x y hx hy _ => (tabs_defined hx).trans (tabs_defined hy).symm)
  refine ⟨n, fun m hm => ?_⟩
  obtain ⟨out, out', rs, rs', l, l', a1, a2, a3, a4, a5, -, -, a6, -⟩ := hn m hm
  refine ⟨out, out', rs, rs', l, l', a1, a2, a3, a4, a5, a6 fun x y hx hy hlt => ?_⟩
  rw [tabs_defined hx, tabs_defined hy] at hlt
  exact absurd rfl hlt.2

end H800
