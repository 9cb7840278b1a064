import Verif.Spec.Layout
import Verif.Lemmas.SymTools

/-!
The listing of a table is the layout of its rows.
-/

namespace H800

open Spec

/-! ### Every dict in the table has an entry -/

/-- No dict within the table is empty. -/
def Full (t : Symtab) : Prop :=
  ∀ tag d, dget t tag = some d → d ≠ [] ∧ ∀ seg d2, dget d seg = some d2 → d2 ≠ [] ∧
    ∀ sub d3, dget d2 sub = some d3 → d3 ≠ []

theorem dset_ne_nil {ν : Type} (d : Dict Str ν) (k : Str) (v : ν) : dset d k v ≠ [] := by
  intro h
  have := dget_dset d k k v
  rw [h] at this
  simp [dget] at this

theorem full_put4 {t : Symtab} (h : Full t) (tag seg sub kind : Str) (e : SymEntry) :
    Full (put4 t tag seg sub kind e) := by
  intro tag' d hd
  unfold put4 at hd
  rw [dget_dset] at hd
  split at hd
  · cases hd
    refine ⟨dset_ne_nil _ _ _, fun seg' d2 hd2 => ?_⟩
    rw [dget_dset] at hd2
    split at hd2
    · cases hd2
      refine ⟨dset_ne_nil _ _ _, fun sub' d3 hd3 => ?_⟩
      rw [dget_dset] at hd3
      split at hd3
      · cases hd3; exact dset_ne_nil _ _ _
      · obtain ⟨d2, h2, h3⟩ := (dget_dat _ _ _ _).1 hd3
        obtain ⟨d1, h1, h2⟩ := (dget_dat _ _ _ _).1 h2
        exact ((h _ d1 h1).2 _ d2 h2).2 _ d3 h3
    · obtain ⟨d1, h1, h2⟩ := (dget_dat _ _ _ _).1 hd2
      exact (h _ d1 h1).2 _ d2 h2
  · exact h _ d hd

theorem full_step {upper : Str → Str} {seg : Str} {st st' : BuildState} {c : CodeCard}
    (h : Full st.symtab) (hs : buildStep upper seg st c = .ok st') : Full st'.symtab := by
  obtain ⟨-, e | ⟨tag, tt, o, -, e⟩⟩ := buildStep_table hs
  · rw [e]; exact h
  · rw [e]; exact full_put4 h _ _ _ _ _

theorem full_cards {upper : Str → Str} {seg : Str} {cards : List CodeCard} {st st' : BuildState}
    (h : Full st.symtab) (hs : buildCards upper seg st cards = .ok st') : Full st'.symtab := by
  unfold buildCards at hs
  induction cards generalizing st with
  | nil => cases hs; exact h
  | cons c cs ih =>
    rw [List.foldlM_cons] at hs
    cases h1 : buildStep upper seg st c with
    | error e => rw [h1] at hs; cases hs
    | ok st1 => rw [h1] at hs; exact ih (full_step h h1) hs

theorem full_all {upper : Str → Str} {fs : FileSystem} {fuel : Nat} {files : List Str}
    {r : Symtab × List Nat × Nat} (h : buildAll upper fs fuel files = .ok r) : Full r.1 := by
  unfold buildAll at h
  have gen : ∀ (files : List Str) (r0 r : Symtab × List Nat × Nat), Full r0.1 →
      files.foldlM (fun r f => do
        let b ← buildSymbolTable upper fs fuel f r.1
        return (b.symtab, r.2.1 ++ [b.errcount], r.2.2 + b.errcount)) r0 =
          Except.ok (ε := PyErr) r → Full r.1 := by
    intro files
    induction files with
    | nil => intro r0 r h0 h; cases h; exact h0
    | cons f files ih =>
      intro r0 r h0 h
      rw [List.foldlM_cons] at h
      cases hb : buildSymbolTable upper fs fuel f r0.1 with
      | error e => rw [hb] at h; cases h
      | ok b =>
        rw [hb] at h
        obtain ⟨-, out, -, hc⟩ := build_ok hb
        exact ih (b.symtab, r0.2.1 ++ [b.errcount], r0.2.2 + b.errcount) r
          (full_cards (st := ⟨r0.1, py "1", 0, []⟩) h0 hc) h
  exact gen files _ r (fun _ _ h => by cases h) h

/-! ### The lines of a table -/

/-- The lines of a subsegment. -/
def kindPure (kinds : Dict Str SymEntry) : List ListLine :=
  (sortedKeys kinds).flatMap fun k => ((dget kinds k).map fun e =>
    ListLine.entry k e.tagtype (splitFirst (e.file.getD []) '.') e.line e.card.text).toList

/-- The lines of a segment. -/
def subPure (subs : Dict Str (Dict Str SymEntry)) : List ListLine :=
  (sortedKeys subs).flatMap fun k => .sub k :: kindPure (dat subs k)

/-- The lines of a symbol. -/
def segPure (segs : Dict Str (Dict Str (Dict Str SymEntry))) : List ListLine :=
  (sortedKeys segs).flatMap fun k => .seg k :: subPure (dat segs k)

/-- The lines of a table. -/
def tablePure (t : Symtab) : List ListLine :=
  (sortedKeys t).flatMap fun k => .sym k :: segPure (dat t k)

theorem mapM_pure {α β γ : Type} {f : α → Py β} {g : α → List γ} {tl : β → List γ}
    (h : ∀ a b, f a = .ok b → tl b = g a) {ks : List α} {ls : List β}
    (hm : ks.mapM f = .ok ls) : ls.flatMap tl = ks.flatMap g := by
  induction ks generalizing ls with
  | nil => rw [mapM_nil_ok.1 hm]; rfl
  | cons k ks ih =>
    obtain ⟨b, bs, h1, h2, rfl⟩ := mapM_cons_ok.1 hm
    rw [List.flatMap_cons, List.flatMap_cons, h k b h1, ih h2]

theorem kindLines_pure {kinds : Dict Str SymEntry} {l : List ListLine}
    (h : kindLines kinds = .ok l) : l = kindPure kinds := by
  have := mapM_pure (tl := fun x => [x]) (g := fun k => ((dget kinds k).map fun e =>
    ListLine.entry k e.tagtype (splitFirst (e.file.getD []) '.') e.line e.card.text).toList)
    (by
      intro k b hb
      cases hd : dgetE kinds k with
      | error e => rw [hd] at hb; cases hb
      | ok e =>
        rw [hd, py_bind_ok] at hb
        rw [dgetE_ok.1 hd]
        unfold entryLine at hb
        cases hf : e.file with
        | none => rw [hf] at hb; cases hb
        | some f =>
          rw [hf] at hb; cases hb
          simp [hf]) h
  unfold kindPure
  rw [← this]
  simp

theorem level_pure {ν : Type} {d : Dict Str (Dict Str ν)} {f : Dict Str ν → Py (List ListLine)}
    {g : Dict Str ν → List ListLine} (hd : Str → ListLine)
    (hf : ∀ v l, f v = .ok l → l = g v) {l : List ListLine}
    (h : (do
      let l ← (sortedKeys d).mapM fun k => do return hd k :: (← f (← dgetE d k))
      return l.flatten) = Except.ok (ε := PyErr) l) :
    l = (sortedKeys d).flatMap fun k => hd k :: g (dat d k) := by
  cases hm : (sortedKeys d).mapM (fun k => do
      return hd k :: (← f (← dgetE d k))) with
  | error e => rw [hm] at h; cases h
  | ok ls =>
    rw [hm] at h; cases h
    rw [← mapM_pure (tl := id) ?_ hm, List.flatMap_id]
    intro k b hb
    cases hk : dgetE d k with
    | error e => rw [hk] at hb; cases hb
    | ok v =>
      rw [hk, py_bind_ok] at hb
      cases hv : f v with
      | error e => rw [hv] at hb; cases hb
      | ok l' =>
        rw [hv] at hb; cases hb
        rw [dgetE_dat hk, ← hf v l' hv]
        rfl

theorem subLines_pure {subs : Dict Str (Dict Str SymEntry)} {l : List ListLine}
    (h : subLines subs = .ok l) : l = subPure subs := by
  unfold subLines at h
  exact level_pure (f := kindLines) (g := kindPure) .sub (fun _ _ h => kindLines_pure h) h

theorem segLines_pure {segs : Dict Str (Dict Str (Dict Str SymEntry))} {l : List ListLine}
    (h : segLines segs = .ok l) : l = segPure segs := by
  unfold segLines at h
  exact level_pure (f := subLines) (g := subPure) .seg (fun _ _ h => subLines_pure h) h

theorem tableLines_pure {t : Symtab} {l : List ListLine} (h : tableLines t = .ok l) :
    l = tablePure t := by
  unfold tableLines at h
  exact level_pure (f := segLines) (g := segPure) .sym (fun _ _ h => segLines_pure h) h

/-! ### Layout -/

/-- The last row, or what was before. -/
def lastRow (p : Option Row) : List Row → Option Row
  | [] => p
  | r :: rs => lastRow (some r) rs

theorem lastRow_mem {p : Option Row} {l : List Row} (h : l ≠ []) : ∃ r ∈ l, lastRow p l = some r := by
  induction l generalizing p with
  | nil => exact absurd rfl h
  | cons r rs ih =>
    by_cases hr : rs = []
    · subst hr; exact ⟨r, List.mem_cons_self, rfl⟩
    · obtain ⟨q, h1, h2⟩ := ih (p := some r) hr
      exact ⟨q, List.mem_cons_of_mem _ h1, h2⟩

theorem layout_append (p : Option Row) (a b : List Row) :
    layout p (a ++ b) = layout p a ++ layout (lastRow p a) b := by
  induction a generalizing p with
  | nil => rfl
  | cons r a ih => simp [layout, lastRow, ih]

/-- The heading of a subsegment, with those above it that change. -/
def upSub (tag seg sub : Str) (p : Option Row) : List ListLine :=
  headings p ⟨tag, seg, sub, [], [], [], 0, []⟩

/-- The headings of the symbol and the segment that change. -/
def upSeg (tag seg : Str) (p : Option Row) : List ListLine :=
  match p with
  | none => [.sym tag, .seg seg]
  | some q => if q.tag ≠ tag then [.sym tag, .seg seg] else if q.seg ≠ seg then [.seg seg] else []

/-- The heading of the symbol if it changes. -/
def upTag (tag : Str) (p : Option Row) : List ListLine :=
  match p with
  | none => [.sym tag]
  | some q => if q.tag ≠ tag then [.sym tag] else []

theorem headings_eq (p : Option Row) (r : Row) : headings p r = upSub r.tag r.seg r.sub p := rfl

theorem layout_kinds (tag seg sub : Str) (kinds : Dict Str SymEntry) (h : kindRows tag seg sub kinds ≠ [])
    (p : Option Row) :
    layout p (kindRows tag seg sub kinds) = upSub tag seg sub p ++ kindPure kinds := by
  unfold kindRows kindPure at *
  generalize sortedKeys kinds = ks at h
  have gen : ∀ (ks : List Str) (q : Row), q.tag = tag → q.seg = seg → q.sub = sub →
      layout (some q) (ks.flatMap fun k => ((dget kinds k).map (rowOf tag seg sub k)).toList) =
      ks.flatMap fun k => ((dget kinds k).map fun e => ListLine.entry k e.tagtype
        (splitFirst (e.file.getD []) '.') e.line e.card.text).toList := by
    intro ks
    induction ks with
    | nil => intros; rfl
    | cons k ks ih =>
      intro q h1 h2 h3
      rw [List.flatMap_cons, List.flatMap_cons]
      cases hd : dget kinds k with
      | none => exact ih q h1 h2 h3
      | some e =>
        simp only [Option.map_some, Option.toList_some, List.singleton_append, layout]
        rw [ih (rowOf tag seg sub k e) rfl rfl rfl]
        simp [headings, rowOf, h1, h2, h3]
  induction ks with
  | nil => exact absurd rfl h
  | cons k ks ih =>
    rw [List.flatMap_cons, List.flatMap_cons]
    rw [List.flatMap_cons] at h
    cases hd : dget kinds k with
    | none => rw [hd] at h; exact ih h
    | some e =>
      simp only [Option.map_some, Option.toList_some, List.singleton_append, layout]
      rw [gen ks (rowOf tag seg sub k e) rfl rfl rfl]
      rfl

theorem sortedKeys_ne {ν : Type} {d : Dict Str ν} (h : d ≠ []) : sortedKeys d ≠ [] := by
  obtain ⟨p, d, rfl⟩ := List.exists_cons_of_ne_nil h
  intro e
  have : p.1 ∈ sortedKeys (p :: d) := by
    rw [mem_sortedKeys]
    simp [dget]
  rw [e] at this
  cases this

theorem dget_of_key {ν : Type} {d : Dict Str ν} {k : Str} (h : k ∈ sortedKeys d) :
    ∃ v, dget d k = some v := by
  rw [mem_sortedKeys] at h
  exact h

theorem nodup_sorted {ν : Type} {d : Dict Str ν} (h : (d.map (·.1)).Nodup) :
    (sortedKeys d).Nodup :=
  (sortedKeys_increasing h).imp fun h => h.2

theorem kindRows_mem {tag seg sub : Str} {kinds : Dict Str SymEntry} {r : Row}
    (h : r ∈ kindRows tag seg sub kinds) : r.tag = tag ∧ r.seg = seg ∧ r.sub = sub := by
  unfold kindRows at h
  simp only [List.mem_flatMap, Option.mem_toList, Option.map_eq_some_iff] at h
  obtain ⟨k, -, e, -, rfl⟩ := h
  exact ⟨rfl, rfl, rfl⟩

theorem subRows_mem {tag seg : Str} {subs : Dict Str (Dict Str SymEntry)} {r : Row}
    (h : r ∈ subRows tag seg subs) : r.tag = tag ∧ r.seg = seg := by
  unfold subRows at h
  obtain ⟨k, -, h⟩ := List.mem_flatMap.1 h
  exact ⟨(kindRows_mem h).1, (kindRows_mem h).2.1⟩

theorem segRows_mem {tag : Str} {segs : Dict Str (Dict Str (Dict Str SymEntry))} {r : Row}
    (h : r ∈ segRows tag segs) : r.tag = tag := by
  unfold segRows at h
  obtain ⟨k, -, h⟩ := List.mem_flatMap.1 h
  exact (subRows_mem h).1

theorem flatMap_ne {α : Type} {ks : List Str} {R : Str → List α} (h0 : ks ≠ [])
    (h : ∀ k ∈ ks, R k ≠ []) : ks.flatMap R ≠ [] := by
  obtain ⟨k, ks, rfl⟩ := List.exists_cons_of_ne_nil h0
  rw [List.flatMap_cons]
  intro e
  exact h k List.mem_cons_self (List.append_eq_nil_iff.1 e).1

theorem kindRows_ne (tag seg sub : Str) {kinds : Dict Str SymEntry} (h : kinds ≠ []) :
    kindRows tag seg sub kinds ≠ [] := by
  refine flatMap_ne (sortedKeys_ne h) fun k hk => ?_
  obtain ⟨v, hv⟩ := dget_of_key hk
  simp [hv]

/-- No dict within the dict of a segment is empty. -/
def FullSubs (d : Dict Str (Dict Str SymEntry)) : Prop :=
  d ≠ [] ∧ ∀ sub d3, dget d sub = some d3 → d3 ≠ []

/-- No dict within the dict of a symbol is empty. -/
def FullSegs (d : Dict Str (Dict Str (Dict Str SymEntry))) : Prop :=
  d ≠ [] ∧ ∀ seg d2, dget d seg = some d2 → FullSubs d2

theorem dat_of_key {ν : Type} {d : Dict Str (Dict Str ν)} {k : Str} {P : Dict Str ν → Prop}
    (h : ∀ k v, dget d k = some v → P v) (hk : k ∈ sortedKeys d) : P (dat d k) := by
  obtain ⟨v, hv⟩ := dget_of_key hk
  unfold dat
  rw [hv]
  exact h k v hv

theorem subRows_ne (tag seg : Str) {subs : Dict Str (Dict Str SymEntry)} (h : FullSubs subs) :
    subRows tag seg subs ≠ [] :=
  flatMap_ne (sortedKeys_ne h.1) fun _ hk => kindRows_ne _ _ _ (dat_of_key h.2 hk)

theorem segRows_ne (tag : Str) {segs : Dict Str (Dict Str (Dict Str SymEntry))}
    (h : FullSegs segs) : segRows tag segs ≠ [] :=
  flatMap_ne (sortedKeys_ne h.1) fun _ hk => subRows_ne _ _ (dat_of_key h.2 hk)

/-- One level: when each part is laid out with its own heading, so is the whole. -/
theorem layout_level (R : Str → List Row) (L : Str → List ListLine) (hd : Str → ListLine)
    (up : Option Row → List ListLine) (In : Row → Str → Prop) (ks : List Str)
    (hne : ∀ k ∈ ks, ∀ p, (∀ r, p = some r → ¬ In r k) → layout p (R k) = up p ++ hd k :: L k)
    (hR : ∀ k, ∀ r ∈ R k, up (some r) = [] ∧ ∀ k', In r k' → k' = k)
    (hk : ∀ k ∈ ks, R k ≠ []) (hnd : ks.Nodup)
    (p : Option Row) (hp : ∀ r, p = some r → ∀ k ∈ ks, ¬ In r k) (h0 : ks ≠ []) :
    layout p (ks.flatMap R) = up p ++ ks.flatMap fun k => hd k :: L k := by
  induction ks generalizing p with
  | nil => exact absurd rfl h0
  | cons k ks ih =>
    rw [List.flatMap_cons, layout_append,
      hne k List.mem_cons_self p (fun r hr => hp r hr k List.mem_cons_self), List.flatMap_cons]
    by_cases hks : ks = []
    · subst hks; simp [layout]
    · obtain ⟨q, hq, hl⟩ := lastRow_mem (p := p) (hk k List.mem_cons_self)
      rw [ih (fun k' h => hne k' (List.mem_cons_of_mem _ h))
        (fun k' h => hk k' (List.mem_cons_of_mem _ h)) (List.nodup_cons.1 hnd).2
        (lastRow p (R k)) ?_ hks, hl, (hR k q hq).1]
      · simp
      · intro r hr k' hk' hin
        rw [hl] at hr
        cases hr
        have := (hR k q hq).2 k' hin
        subst this
        exact (List.nodup_cons.1 hnd).1 hk'

theorem layout_subs (tag seg : Str) {subs : Dict Str (Dict Str SymEntry)} (hf : FullSubs subs)
    (hn : (subs.map (·.1)).Nodup) (p : Option Row)
    (hp : ∀ r, p = some r → ¬ (r.tag = tag ∧ r.seg = seg)) :
    layout p (subRows tag seg subs) = upSeg tag seg p ++ subPure subs := by
  refine layout_level (fun k => kindRows tag seg k (dat subs k)) (fun k => kindPure (dat subs k))
    .sub (upSeg tag seg) (fun r k => r.tag = tag ∧ r.seg = seg ∧ r.sub = k) (sortedKeys subs)
    ?_ ?_ (fun k hk => kindRows_ne _ _ _ (dat_of_key hf.2 hk)) (nodup_sorted hn) p
    (fun r hr k _ h => hp r hr ⟨h.1, h.2.1⟩) (sortedKeys_ne hf.1)
  · intro k hk p hp
    rw [layout_kinds _ _ _ _ (kindRows_ne _ _ _ (dat_of_key hf.2 hk))]
    cases p with
    | none => rfl
    | some q =>
      have hq := hp q rfl
      simp only [upSub, headings, upSeg]
      by_cases h1 : q.tag = tag
      · by_cases h2 : q.seg = seg
        · have h3 : q.sub ≠ k := fun h3 => hq ⟨h1, h2, h3⟩
          simp [h1, h2, h3]
        · simp [h1, h2]
      · simp [h1]
  · intro k r hr
    obtain ⟨h1, h2, h3⟩ := kindRows_mem hr
    exact ⟨by simp [upSeg, h1, h2], fun k' h => h.2.2.symm.trans h3⟩

theorem layout_segs (tag : Str) {segs : Dict Str (Dict Str (Dict Str SymEntry))}
    (hf : FullSegs segs) (hn : (segs.map (·.1)).Nodup)
    (hn2 : ∀ seg, ((dat segs seg).map (·.1)).Nodup) (p : Option Row)
    (hp : ∀ r, p = some r → r.tag ≠ tag) :
    layout p (segRows tag segs) = upTag tag p ++ segPure segs := by
  refine layout_level (fun k => subRows tag k (dat segs k)) (fun k => subPure (dat segs k))
    .seg (upTag tag) (fun r k => r.tag = tag ∧ r.seg = k) (sortedKeys segs)
    ?_ ?_ (fun k hk => subRows_ne _ _ (dat_of_key hf.2 hk)) (nodup_sorted hn) p
    (fun r hr k _ h => hp r hr h.1) (sortedKeys_ne hf.1)
  · intro k hk p hp
    rw [layout_subs tag k (dat_of_key hf.2 hk) (hn2 k) p hp]
    cases p with
    | none => rfl
    | some q =>
      have hq := hp q rfl
      simp only [upSeg, upTag]
      by_cases h1 : q.tag = tag
      · have h2 : q.seg ≠ k := fun h2 => hq ⟨h1, h2⟩
        simp [h1, h2]
      · simp [h1]
  · intro k r hr
    obtain ⟨h1, h2⟩ := subRows_mem hr
    exact ⟨by simp [upTag, h1], fun k' h => h.2.symm.trans h2⟩

theorem full_segs {t : Symtab} (h : Full t) (tag : Str) (d : Dict Str (Dict Str (Dict Str SymEntry)))
    (hd : dget t tag = some d) : FullSegs d := h tag d hd

theorem layout_table {t : Symtab} (hf : Full t) (hd : Dicts4 t) :
    layout none (tableRows t) = tablePure t := by
  by_cases h0 : t = []
  · subst h0; rfl
  refine layout_level (fun k => segRows k (dat t k)) (fun k => segPure (dat t k))
    .sym (fun _ => []) (fun r k => r.tag = k) (sortedKeys t)
    ?_ ?_ (fun k hk => segRows_ne _ (dat_of_key (full_segs hf) hk)) (nodup_sorted hd.1) none
    (fun r hr => by cases hr) (sortedKeys_ne h0)
  · intro k hk p hp
    rw [layout_segs k (dat_of_key (full_segs hf) hk) (hd.2 k).1 (fun s => ((hd.2 k).2 s).1) p hp]
    cases p with
    | none => rfl
    | some q =>
      simp [upTag, hp q rfl]
  · intro k r hr
    exact ⟨rfl, fun k' h => h.symm.trans (segRows_mem hr)⟩

end H800
