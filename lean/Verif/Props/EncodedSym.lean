import Verif.Model.EncodedSym
import Verif.Spec.CommandLine
import Verif.Props.EncodedList
import Verif.Lemmas.SymbolsFind

/-!
C244: a symbol tool prints all it has to say on the standard output, whatever characters the sources hold.
-/

namespace H800

open Spec

/-- All keys of a dict can be encoded, and all values have the property. -/
def EncDict {ν : Type} (enc : Char → Bool) (P : ν → Prop) (d : Dict Str ν) : Prop :=
  ∀ p ∈ d, EncLine enc p.1 ∧ P p.2

/-- All texts of a definition can be encoded. -/
structure EncEntry (enc : Char → Bool) (e : SymEntry) : Prop where
  /-- the name of the file -/
  file : ∀ s ∈ e.file, EncLine enc s
  /-- the log number -/
  lognum : ∀ s ∈ e.lognum, EncLine enc s
  /-- the type of the tag -/
  tagtype : EncLine enc e.tagtype
  /-- the card -/
  card : EncLine enc e.card.text

/-- All texts of a table can be encoded. -/
def EncTab (enc : Char → Bool) (t : Symtab) : Prop :=
  EncDict enc (EncDict enc (EncDict enc (EncDict enc (EncEntry enc)))) t

/-- All texts of a card that the table may hold can be encoded. -/
structure EncSource (enc : Char → Bool) (c : CodeCard) : Prop where
  /-- the name of the file -/
  file : ∀ s ∈ c.file, EncLine enc s
  /-- the log number -/
  lognum : ∀ s ∈ c.lognum, EncLine enc s
  /-- the label -/
  label : ∀ s ∈ c.label, EncLine enc s
  /-- the operation -/
  operation : ∀ s ∈ c.operation, EncLine enc s
  /-- the line -/
  text : EncLine enc c.text

section
variable {enc : Char → Bool}

theorem encDict_get {ν : Type} {P : ν → Prop} {d : Dict Str ν} (h : EncDict enc P d) {k : Str} {v : ν}
    (e : dget d k = some v) : EncLine enc k ∧ P v := h _ (dget_mem e)

theorem encDict_set {ν : Type} {P : ν → Prop} {d : Dict Str ν} (h : EncDict enc P d) {k : Str} {v : ν}
    (hk : EncLine enc k) (hv : P v) : EncDict enc P (dset d k v) := by
  induction d with
  | nil =>
    intro p hp
    rw [dset, List.mem_singleton] at hp
    subst hp
    exact ⟨hk, hv⟩
  | cons q d ih =>
    obtain ⟨k', v'⟩ := q
    rw [dset]
    split
    · intro p hp
      rcases List.mem_cons.1 hp with rfl | hp
      · exact ⟨(h (k', v') List.mem_cons_self).1, hv⟩
      · exact h p (List.mem_cons_of_mem _ hp)
    · intro p hp
      rcases List.mem_cons.1 hp with rfl | hp
      · exact h _ List.mem_cons_self
      · exact ih (fun q hq => h q (List.mem_cons_of_mem _ hq)) p hp

theorem encDict_one {ν : Type} {P : ν → Prop} {k : Str} {v : ν} (hk : EncLine enc k) (hv : P v) :
    EncDict enc P [(k, v)] := by
  intro p hp
  rw [List.mem_singleton.1 hp]
  exact ⟨hk, hv⟩

theorem encLine_nil : EncLine enc [] := fun _ h => nomatch h

theorem encLine_split {s : Str} (hs : EncLine enc s) (d : Char) (i : Nat) :
    EncLine enc ((pySplit d s).getD i []) := by
  rw [List.getD_eq_getElem?_getD]
  cases h : (pySplit d s)[i]? with
  | none => exact encLine_nil
  | some w => exact fun c hc => hs c (pySplit_char s w (List.mem_of_getElem? h) hc)

theorem encLine_strip {s : Str} (hs : EncLine enc s) : EncLine enc (strip s) :=
  fun c hc => hs c (strip_mem hc)

theorem encLine_remove {s : Str} (hs : EncLine enc s) (d : Char) : EncLine enc (remove s d) :=
  fun c hc => hs c (List.mem_filter.1 hc).1

theorem encLine_splitFirst {s : Str} (hs : EncLine enc s) (d : Char) : EncLine enc (splitFirst s d) :=
  fun c hc => hs c ((List.takeWhile_sublist _).mem hc)

theorem encLine_join {sep : Str} (hs : EncLine enc sep) {l : List Str} (h : ∀ s ∈ l, EncLine enc s) :
    EncLine enc (joinText sep l) := by
  induction l with
  | nil => exact encLine_nil
  | cons x l ih =>
    cases l with
    | nil => exact h x List.mem_cons_self
    | cons y l =>
      rw [joinText]
      exact encLine_append (encLine_append (h x List.mem_cons_self) hs)
        (ih fun s hs => h s (List.mem_cons_of_mem _ hs))

/-! ### The table -/

theorem encTab_redefine {st st' : BuildState} {seg tag kind command : Str} {e : SymEntry}
    {segs : Dict Str (Dict Str (Dict Str SymEntry))} {subs : Dict Str (Dict Str SymEntry)}
    {kinds : Dict Str SymEntry} (ht : EncTab enc st.symtab) (hsub : EncLine enc st.subseg)
    (hseg : EncLine enc seg) (htag : EncLine enc tag) (hkind : EncLine enc kind) (he : EncEntry enc e)
    (h1 : EncDict enc (EncDict enc (EncDict enc (EncEntry enc))) segs)
    (h2 : EncDict enc (EncDict enc (EncEntry enc)) subs) (h3 : EncDict enc (EncEntry enc) kinds)
    (h : redefine st seg tag kind command e segs subs kinds = .ok st') :
    EncTab enc st'.symtab ∧ EncLine enc st'.subseg := by
  unfold redefine at h
  split at h
  · cases h
    exact ⟨encDict_set ht htag (encDict_set h1 hseg (encDict_set h2 hsub (encDict_set h3 hkind he))), hsub⟩
  · split at h
    · split at h <;> cases h
    · cases h
      exact ⟨ht, hsub⟩

theorem encTab_define {st st' : BuildState} {seg tag kind command : Str} {e : SymEntry}
    (ht : EncTab enc st.symtab) (hsub : EncLine enc st.subseg)
    (hseg : EncLine enc seg) (htag : EncLine enc tag) (hkind : EncLine enc kind) (he : EncEntry enc e)
    (h : define st seg tag kind command e = .ok st') :
    EncTab enc st'.symtab ∧ EncLine enc st'.subseg := by
  unfold define at h
  split at h
  · cases h
    exact ⟨encDict_set ht htag (encDict_one hseg (encDict_one hsub (encDict_one hkind he))), hsub⟩
  · rename_i segs e1
    have h1 := (encDict_get ht e1).2
    split at h
    · cases h
      exact ⟨encDict_set ht htag (encDict_set h1 hseg (encDict_one hsub (encDict_one hkind he))), hsub⟩
    · rename_i subs e2
      have h2 := (encDict_get h1 e2).2
      split at h
      · cases h
        exact ⟨encDict_set ht htag (encDict_set h1 hseg (encDict_set h2 hsub (encDict_one hkind he))), hsub⟩
      · rename_i kinds e3
        exact encTab_redefine ht hsub hseg htag hkind he h1 h2 (encDict_get h2 e3).2 h

section
variable (ha : ∀ c : Char, c.toNat < 128 → enc c = true)
include ha

theorem enc_checkLabel {upper : Str → Str} {s tag tt : Str} (hs : EncLine enc s)
    (h : checkLabel upper s = .ok (tag, tt)) : EncLine enc tag ∧ EncLine enc tt := by
  unfold checkLabel at h
  split at h
  · cases h
  · split at h
    · split at h
      · cases h
      · simp only at h
        split at h
        · cases h
        · split at h
          · cases h
          · cases h
            exact ⟨encLine_split hs _ _, encLine_split hs _ _⟩
    · cases h
      exact ⟨hs, encLine_ascii ha (by decide)⟩

theorem encTab_step {upper : Str → Str} {seg : Str} (hseg : EncLine enc seg) {st st' : BuildState}
    (ht : EncTab enc st.symtab) (hsub : EncLine enc st.subseg) {c : CodeCard} (hc : EncSource enc c)
    (h : buildStep upper seg st c = .ok st') : EncTab enc st'.symtab ∧ EncLine enc st'.subseg := by
  have hn : EncLine enc (nextSubseg st.subseg c.operation) := by
    unfold nextSubseg
    split
    · exact hsub
    · rename_i o e
      split
      · unfold setlocName
        split
        · exact encLine_strip (encLine_split (hc.operation o e) _ _)
        · exact encLine_ascii ha (by decide)
      · exact hsub
  unfold buildStep at h
  split at h
  · cases h; exact ⟨ht, hsub⟩
  · simp only at h
    split at h
    · cases h; exact ⟨ht, hn⟩
    · cases h; exact ⟨ht, hn⟩
    · rename_i label hne e
      have hl : EncLine enc (cleanLabel label) := encLine_remove (encLine_strip (hc.label label e)) _
      unfold defineLabel at h
      split at h
      · cases h; exact ⟨ht, hn⟩
      · rename_i tag tt e2
        obtain ⟨h1, h2⟩ := enc_checkLabel ha hl e2
        split at h
        · cases h; exact ⟨ht, hn⟩
        · rename_i o eo
          refine encTab_define (st := { st with subseg := nextSubseg st.subseg c.operation }) ht hn hseg h1 ?_
            ⟨hc.file, hc.lognum, h2, hc.text⟩ h
          unfold symtypeOf
          split <;> exact encLine_ascii ha (by decide)

theorem encTab_cards {upper : Str → Str} {seg : Str} (hseg : EncLine enc seg) (cards : List CodeCard)
    {st : BuildState} (ht : EncTab enc st.symtab) (hsub : EncLine enc st.subseg)
    (hc : ∀ c ∈ cards, EncSource enc c) : EncTab enc (buildCardsRun upper seg cards st).1.symtab := by
  induction cards generalizing st with
  | nil => exact ht
  | cons c cards ih =>
    rw [buildCardsRun]
    split
    · exact ht
    · rename_i st' e
      obtain ⟨h1, h2⟩ := encTab_step ha hseg ht hsub (hc c List.mem_cons_self) e
      exact ih h1 h2 fun x hx => hc x (List.mem_cons_of_mem _ hx)

end

theorem encSource_src {s : Src} (hf : EncLine enc s.file) (ht : EncLine enc s.text) :
    EncSource enc (srcCard s) := by
  have hcol : ∀ a b, ∀ x ∈ PunchCard.entry (columns s.text a b), EncLine enc x := by
    intro a b x hx
    unfold PunchCard.entry at hx
    split at hx
    · cases hx
    · cases hx
      exact encLine_strip fun c hc => ht c (List.mem_of_mem_drop (List.mem_of_mem_take hc))
  refine ⟨fun x hx => by cases hx; exact hf, hcol 2 8, ?_, ?_, encLine_remove ht _⟩
  · intro x hx
    unfold srcCard at hx
    simp only at hx
    split at hx
    · cases hx
    · exact hcol 9 20 x hx
  · intro x hx
    unfold srcCard at hx
    simp only at hx
    split at hx
    · cases hx
    · exact hcol 20 33 x hx

end

section
variable {enc printable : Char → Bool} {addr : CodeCard → Nat} {fs : FileSystem} {files : List Str}
  (he : CanEncode enc fs files)
include he

theorem enc_sources {fuel : Nat} {file : Str} (hf : Reached fs files file) {cards : List CodeCard}
    (h : deckCards fs fuel file = .ok cards) : ∀ c ∈ cards, EncSource enc c := by
  obtain ⟨-, out, ⟨t, ht, hx⟩, rfl⟩ := deckCards_ok h
  intro c hc
  obtain ⟨s, hs, rfl⟩ := List.mem_map.1 hc
  have h := enc_expand he hx hf (fun t' e l h => by rw [ht] at e; cases e; exact h) ⟨t, ht⟩ s hs
  exact encSource_src h.1 h.2

omit he in
theorem enc_silent {l : List SymMsg} (h : ∀ m ∈ l, m.onStdout = false) :
    EncMsgs enc (symOutText printable addr) (l.map .msg) := by
  apply encMsgs_msgs
  intro m hm x hx
  rw [h m hm] at hx
  cases hx

theorem enc_build (v : Bool) (upper : Str → Str) (fuel : Nat) {f : Str} (hf : f ∈ files) {t : Symtab}
    (ht : EncTab enc t) : EncMsgs enc (symOutText printable addr) (buildV v upper fs fuel f t).1 ∧
      EncTab enc (buildV v upper fs fuel f t).2.1.symtab := by
  have hr : Reached fs files f := .given hf
  have e1 := deckCardsV_snd (α := SymMsg) v fs fuel f
  have e2 := enc_deckNotes he (text := symOutText printable addr) (tellsNotes_text _) v fuel hr
  unfold buildV
  generalize deckCardsV (α := SymMsg) v fs fuel f = p at e1 e2
  obtain ⟨o, p⟩ := p
  cases p with
  | error e => exact ⟨e2, ht⟩
  | ok cards =>
    have h := encTab_cards he.ascii (upper := upper) (encLine_splitFirst (enc_reached he hr) '.') cards
      (st := ⟨t, py "1", 0, []⟩) ht
      (encLine_ascii he.ascii (by decide : ∀ c ∈ py "1", c.toNat < 128)) (enc_sources he hr e1.symm)
    simp only
    generalize buildCardsRun upper (splitFirst f '.') cards ⟨t, py "1", 0, []⟩ = q at h
    obtain ⟨b, r⟩ := q
    refine ⟨encMsgs_append e2 ?_, h⟩
    have := enc_silent (enc := enc) (printable := printable) (addr := addr) (l := b.diags.map .diag) (by
      intro m hm
      obtain ⟨d, -, rfl⟩ := List.mem_map.1 hm
      rfl)
    rw [List.map_map] at this
    exact this

theorem enc_buildFiles (v : Bool) (upper : Str → Str) (fuel : Nat) (announce : Bool) (fl : List Str)
    (hfl : ∀ f ∈ fl, f ∈ files) {t : Symtab} (ht : EncTab enc t) (n : Nat) :
    EncMsgs enc (symOutText printable addr) (buildFilesV v upper fs fuel announce fl t n).1 ∧
      EncTab enc (buildFilesV v upper fs fuel announce fl t n).2.1 := by
  induction fl generalizing t n with
  | nil => exact ⟨encMsgs_nil, ht⟩
  | cons f fl ih =>
    obtain ⟨h1, h2⟩ := enc_build (printable := printable) (addr := addr) he v upper fuel
      (hfl f List.mem_cons_self) ht
    rw [buildFilesV]
    generalize buildV v upper fs fuel f t = p at h1 h2
    obtain ⟨o, b, r⟩ := p
    cases r with
    | error e => exact ⟨h1, h2⟩
    | ok u =>
      obtain ⟨h3, h4⟩ := ih (fun x hx => hfl x (List.mem_cons_of_mem _ hx)) h2 (n + b.errcount)
      simp only
      generalize buildFilesV v upper fs fuel announce fl b.symtab (n + b.errcount) = q at h3 h4
      obtain ⟨o', r⟩ := q
      refine ⟨encMsgs_append (encMsgs_append h1 ?_) h3, h4⟩
      split
      · exact enc_silent (l := [.fileErrs f b.errcount]) (by intro m hm; rw [List.mem_singleton.1 hm]; rfl)
      · exact encMsgs_nil

/-! ### list-symbols -/

omit he in
/-- What the loops over sorted keys print. -/
theorem enc_keyLoop {ν : Type} {P : ν → Prop} {d : Dict Str ν} (hd : EncDict enc P d)
    (f : Str → ν → Py (List ListLine)) (Q : ListLine → Prop)
    (hf : ∀ k x l, EncLine enc k → P x → f k x = .ok l → ∀ y ∈ l, Q y) {r : List (List ListLine)}
    (h : (sortedKeys d).mapM (fun k => do f k (← dgetE d k)) = .ok r) : ∀ y ∈ r.flatten, Q y := by
  intro y hy
  obtain ⟨l, hl, hy⟩ := List.mem_flatten.1 hy
  obtain ⟨k, hk, e⟩ := mapM_ok_mem h hl
  obtain ⟨x, hx⟩ := mem_sortedKeys.1 hk
  rw [dgetE, hx] at e
  obtain ⟨h1, h2⟩ := encDict_get hd hx
  exact hf k x l h1 h2 e y hy

omit he in
theorem enc_bind {l : List ListLine} {x : ListLine} {m : Py (List ListLine)} {Q : ListLine → Prop}
    (h : (do let r ← m; return x :: r : Py (List ListLine)) = .ok l) (hx : Q x)
    (hm : ∀ r, m = .ok r → ∀ y ∈ r, Q y) : ∀ y ∈ l, Q y := by
  cases m with
  | error e => cases h
  | ok r =>
    cases h
    intro y hy
    rcases List.mem_cons.1 hy with rfl | hy
    · exact hx
    · exact hm r rfl y hy

omit he in
theorem enc_flat {m : Py (List (List ListLine))} {l : List ListLine}
    (h : (do let r ← m; return r.flatten : Py (List ListLine)) = .ok l) :
    ∃ r, m = .ok r ∧ l = r.flatten := by
  cases m with
  | error e => cases h
  | ok r => cases h; exact ⟨r, rfl, rfl⟩

theorem enc_entryLine {k : Str} (hk : EncLine enc k) {e : SymEntry} (h : EncEntry enc e) {y : ListLine}
    (hy : entryLine k e = .ok y) : EncLine enc y.text := by
  unfold entryLine at hy
  split at hy
  · cases hy
  · rename_i f ef
    cases hy
    have hs : enc ' ' = true := he.ascii _ (by decide)
    refine encLine_append (encLine_append (encLine_append (encLine_append (encLine_append
      (encLine_ascii he.ascii (by decide)) (encLine_padRight he.ascii _ ?_)) (encLine_cons hs ?_))
      (encLine_cons hs (encLine_padRight he.ascii _ ?_))) (encLine_ascii he.ascii (by decide))) h.card
    · exact encLine_append (encLine_cons (he.ascii _ (by decide)) hk) (encLine_ascii he.ascii (by decide))
    · exact encLine_padLeft he.ascii (by decide) _ h.tagtype
    · exact encLine_append (encLine_splitFirst (h.file f ef) _)
        (encLine_cons (he.ascii _ (by decide)) (encLine_pyStr he.ascii _))

theorem enc_kindLines {d : Dict Str SymEntry} (hd : EncDict enc (EncEntry enc) d) {l : List ListLine}
    (h : kindLines d = .ok l) : ∀ y ∈ l, EncLine enc y.text := by
  intro y hy
  obtain ⟨k, hk, e⟩ := mapM_ok_mem h hy
  obtain ⟨x, hx⟩ := mem_sortedKeys.1 hk
  simp only [dgetE, hx] at e
  obtain ⟨h1, h2⟩ := encDict_get hd hx
  exact enc_entryLine he h1 h2 e

theorem enc_subLines {d : Dict Str (Dict Str SymEntry)} (hd : EncDict enc (EncDict enc (EncEntry enc)) d)
    {l : List ListLine} (h : subLines d = .ok l) : ∀ y ∈ l, EncLine enc y.text := by
  obtain ⟨r, hr, rfl⟩ := enc_flat h
  refine enc_keyLoop hd (fun k x => do let r ← kindLines x; return .sub k :: r) _ ?_ hr
  intro k x l hk hx hl
  exact enc_bind hl (encLine_append (encLine_ascii he.ascii (by decide)) hk)
    fun r hr => enc_kindLines he hx hr

theorem enc_segLines {d : Dict Str (Dict Str (Dict Str SymEntry))}
    (hd : EncDict enc (EncDict enc (EncDict enc (EncEntry enc))) d)
    {l : List ListLine} (h : segLines d = .ok l) : ∀ y ∈ l, EncLine enc y.text := by
  obtain ⟨r, hr, rfl⟩ := enc_flat h
  refine enc_keyLoop hd (fun k x => do let r ← subLines x; return .seg k :: r) _ ?_ hr
  intro k x l hk hx hl
  exact enc_bind hl (encLine_append (encLine_ascii he.ascii (by decide)) hk)
    fun r hr => enc_subLines he hx hr

theorem enc_tableLines {d : Symtab} (hd : EncTab enc d) {l : List ListLine} (h : tableLines d = .ok l) :
    ∀ y ∈ l, EncLine enc y.text := by
  obtain ⟨r, hr, rfl⟩ := enc_flat h
  refine enc_keyLoop hd (fun k x => do let r ← segLines x; return .sym k :: r) _ ?_ hr
  intro k x l hk hx hl
  exact enc_bind hl hk fun r hr => enc_segLines he hx hr

theorem enc_listSymbols (v : Bool) (upper : Str → Str) (fuel : Nat) :
    EncMsgs enc (symOutText printable addr) (listSymbolsV v upper fs fuel files).1 := by
  unfold listSymbolsV
  split
  · exact encMsgs_nil
  · obtain ⟨h1, h2⟩ := enc_buildFiles (printable := printable) (addr := addr) he v upper fuel false files
      (fun _ h => h) (t := []) (fun _ h => nomatch h) 0
    generalize buildFilesV v upper fs fuel false files [] 0 = p at h1 h2
    obtain ⟨o, t, n, r⟩ := p
    cases r with
    | error e => exact h1
    | ok u =>
      simp only
      split
      · exact h1
      · rename_i l e
        refine encMsgs_append h1 (encMsgs_msgs ?_)
        intro m hm x hx
        rcases List.mem_append.1 hm with hm | hm
        · obtain ⟨y, hy, rfl⟩ := List.mem_map.1 hm
          split at hx
          · rw [SymMsg.text, List.mem_singleton] at hx
            subst hx
            exact enc_tableLines he h2 e y hy
          · cases hx
        · split at hm
          · rw [List.mem_singleton.1 hm] at hx
            cases hx
          · cases hm

/-! ### find-symbols and check-symbols -/

omit he in
theorem hexChar_ascii (d : Nat) (h : d < 16) : (hexChar d).toNat < 128 := by
  have : ∀ d : Fin 16, (hexChar d.1).toNat < 128 := by decide
  exact this ⟨d, h⟩

theorem enc_hexFixed (w n : Nat) : EncLine enc (hexFixed w n) := by
  induction w generalizing n with
  | zero => exact encLine_nil
  | succ w ih =>
    rw [hexFixed]
    refine encLine_append (ih _) (encLine_ascii he.ascii ?_)
    intro c hc
    rw [List.mem_singleton.1 hc]
    exact hexChar_ascii _ (Nat.mod_lt _ (by omega))

theorem enc_reprChar {q c : Char} (hc : enc c = true) : EncLine enc (reprChar printable q c) := by
  have h1 : EncLine enc [c] := encLine_cons hc encLine_nil
  have hx : ∀ (x : Char) (w : Nat), x.toNat < 128 → EncLine enc ('\\' :: x :: hexFixed w c.toNat) :=
    fun x w h => encLine_cons (he.ascii _ (by decide)) (encLine_cons (he.ascii _ h) (enc_hexFixed he _ _))
  unfold reprChar
  split_ifs
  · exact encLine_cons (he.ascii _ (by decide)) h1
  · exact encLine_ascii he.ascii (by decide)
  · exact encLine_ascii he.ascii (by decide)
  · exact encLine_ascii he.ascii (by decide)
  · exact hx _ _ (by decide)
  · exact h1
  · exact h1
  · exact hx _ _ (by decide)
  · exact hx _ _ (by decide)
  · exact hx _ _ (by decide)

theorem enc_reprStr {s : Str} (hs : EncLine enc s) : EncLine enc (reprStr printable s) := by
  unfold reprStr
  simp only
  have hq : enc (if s.contains '\'' && !s.contains '"' then '"' else '\'') = true := by
    split <;> exact he.ascii _ (by decide)
  refine encLine_append (encLine_cons hq ?_) (encLine_cons hq encLine_nil)
  intro c hc
  obtain ⟨d, hd, hc⟩ := List.mem_flatMap.1 hc
  exact enc_reprChar he (hs d hd) c hc

theorem enc_reprOpt {s : Option Str} (hs : ∀ x ∈ s, EncLine enc x) :
    EncLine enc (reprOpt printable s) := by
  cases s with
  | none => exact encLine_ascii he.ascii (by decide : ∀ c ∈ py "None", c.toNat < 128)
  | some s => exact enc_reprStr he (hs s rfl)

theorem enc_reprDict {ν : Type} {P : ν → Prop} {d : Dict Str ν} (hd : EncDict enc P d) {value : ν → Str}
    (hv : ∀ x, P x → EncLine enc (value x)) : EncLine enc (reprDict printable value d) := by
  refine encLine_append (encLine_cons (he.ascii _ (by decide))
    (encLine_join (encLine_ascii he.ascii (by decide)) ?_)) (encLine_ascii he.ascii (by decide))
  intro s hs
  obtain ⟨p, hp, rfl⟩ := List.mem_map.1 hs
  exact encLine_append (encLine_append (enc_reprStr he (hd p hp).1) (encLine_ascii he.ascii (by decide)))
    (hv _ (hd p hp).2)

omit he in
theorem hexDigits_lt (n : Nat) : ∀ d ∈ digits 16 n, d < 16 := by
  have h : ∀ fuel n, ∀ d ∈ digitsAux 16 fuel n, d < 16 := by
    intro fuel
    induction fuel with
    | zero => intro n d hd; cases hd
    | succ fuel ih =>
      intro n d hd
      rw [digitsAux] at hd
      split at hd
      · rw [List.mem_singleton.1 hd]; assumption
      · rcases List.mem_append.1 hd with hd | hd
        · exact ih _ d hd
        · rw [List.mem_singleton.1 hd]; exact Nat.mod_lt _ (by omega)
  exact h _ n

theorem enc_reprCard (c : CodeCard) : EncLine enc (reprCard addr c) := by
  refine encLine_append (encLine_append (encLine_ascii he.ascii (by decide)) (encLine_ascii he.ascii ?_))
    (encLine_ascii he.ascii (by decide))
  intro x hx
  obtain ⟨d, hd, rfl⟩ := List.mem_map.1 hx
  exact hexChar_ascii d (hexDigits_lt _ d hd)

theorem enc_reprEntry {e : SymEntry} (h : EncEntry enc e) : EncLine enc (reprEntry printable addr e) := by
  have A : ∀ {s : Str}, (∀ c ∈ s, c.toNat < 128) → EncLine enc s := fun h => encLine_ascii he.ascii h
  unfold reprEntry reprDef
  refine encLine_append (encLine_append (encLine_append (encLine_append (encLine_append (encLine_append
    (encLine_append (encLine_append (encLine_append (encLine_append ?_ ?_) ?_) ?_) ?_) ?_) ?_) ?_) ?_) ?_) ?_
  · exact A (by decide)
  · exact enc_reprOpt he h.file
  · exact A (by decide)
  · exact encLine_pyStr he.ascii _
  · exact A (by decide)
  · exact enc_reprOpt he h.lognum
  · exact A (by decide)
  · exact enc_reprOpt he fun x hx => by cases hx; exact h.tagtype
  · exact A (by decide)
  · exact enc_reprCard he _
  · exact A (by decide)

omit he in
theorem enc_keys {ν : Type} {P : ν → Prop} {d : Dict Str ν} (hd : EncDict enc P d) :
    ∀ k ∈ sortedKeys d, EncLine enc k := by
  intro k hk
  obtain ⟨x, hx⟩ := mem_sortedKeys.1 hk
  exact (encDict_get hd hx).1

omit he in
theorem absoluteLoop_sub (t : Symtab) (found : Bool) (l : List Str) :
    ∀ s ∈ absoluteLoop t found l, s ∈ l := by
  induction l generalizing found with
  | nil => intro s hs; cases hs
  | cons x l ih =>
    intro s hs
    rw [absoluteLoop] at hs
    split at hs
    · rcases List.mem_cons.1 hs with rfl | hs
      · exact List.mem_cons_self
      · exact List.mem_cons_of_mem _ (ih _ s hs)
    · exact List.mem_cons_of_mem _ (ih _ s hs)

omit he in
theorem enc_find {t : Symtab} (ht : EncTab enc t) {extract : Str → List Str → Nat → List Str}
    (hex : Chooses extract) (name : Str) (symtype : Option Str) (begin end_ fuzzy : Bool) :
    (∀ l, (findSymbolDef extract t name symtype begin end_ fuzzy).1 = .names l →
      ∀ s ∈ l, EncLine enc s) ∧
    ∀ d, (findSymbolDef extract t name symtype begin end_ fuzzy).1 = .defs d →
      EncDict enc (EncDict enc (EncDict enc (EncEntry enc))) d := by
  have hk := enc_keys ht
  unfold findSymbolDef
  split
  · have hd : EncDict enc (EncDict enc (EncDict enc (EncEntry enc))) (dat t name) := by
      unfold dat
      cases hg : dget t name with
      | none => exact fun _ h => nomatch h
      | some segs => exact (encDict_get ht hg).2
    have h1 : (∀ l, (findExact t name symtype).1 ≠ .names l) ∧
        ∀ d, (findExact t name symtype).1 = .defs d → d = dat t name := by
      unfold findExact
      constructor
      · intro l
        split_ifs
        · cases symtype with
          | none => intro e; cases e
          | some k => simp only; split_ifs <;> (intro e; cases e)
        · intro e; cases e
      · intro d
        split_ifs
        · cases symtype with
          | none => intro e; cases e; rfl
          | some k => simp only; split_ifs <;> (intro e; cases e); rfl
        · intro e; cases e
    exact ⟨fun l e => absurd e (h1.1 l), fun d e => by rw [h1.2 d e]; exact hd⟩
  · split
    · refine ⟨fun l e => ?_, fun d e => by cases e⟩
      cases e
      intro s hs
      obtain ⟨x, hx, hs⟩ := List.mem_flatMap.1 hs
      have : s = x := by
        rcases List.mem_append.1 hs with hs | hs
        · split at hs
          · exact List.mem_singleton.1 hs
          · cases hs
        · split at hs
          · exact List.mem_singleton.1 hs
          · cases hs
      rw [this]
      exact hk x hx
    · refine ⟨fun l e => ?_, fun d e => by cases e⟩
      cases e
      intro s hs
      exact hk s (absoluteLoop_sub _ _ _ s ((hex _ _ _).2 s hs))

theorem enc_found {t : Symtab} (ht : EncTab enc t) {extract : Str → List Str → Nat → List Str}
    (hex : Chooses extract) (name : Str) (symtype : Option Str) (begin end_ fuzzy : Bool) :
    EncLine enc ((findSymbolDef extract t name symtype begin end_ fuzzy).1.text printable addr) := by
  obtain ⟨h1, h2⟩ := enc_find ht hex name symtype begin end_ fuzzy
  generalize (findSymbolDef extract t name symtype begin end_ fuzzy).1 = r at h1 h2
  cases r with
  | nothing => exact encLine_ascii he.ascii (by decide : ∀ c ∈ py "None", c.toNat < 128)
  | names l =>
    refine encLine_append (encLine_cons (he.ascii _ (by decide))
      (encLine_join (encLine_ascii he.ascii (by decide)) ?_)) (encLine_ascii he.ascii (by decide))
    intro s hs
    obtain ⟨x, hx, rfl⟩ := List.mem_map.1 hs
    exact enc_reprStr he (h1 l rfl x hx)
  | defs d =>
    exact enc_reprDict he (h2 d rfl) fun x hx => enc_reprDict he hx fun x hx => enc_reprDict he hx
      fun x hx => enc_reprEntry he hx

theorem enc_findSymbols (v : Bool) (upper : Str → Str) {extract : Str → List Str → Nat → List Str}
    (hex : Chooses extract) (fuel : Nat) (begin end_ fuzzy exact_ : Bool) (symbol : Str) :
    EncMsgs enc (symOutText printable addr)
      (findSymbolsV v upper extract fs fuel begin end_ fuzzy exact_ (symbol :: files)).1 := by
  unfold findSymbolsV
  split
  · exact encMsgs_nil
  · cases hfl : files with
    | nil => exact encMsgs_nil
    | cons f fl =>
      rw [← hfl]
      obtain ⟨h1, h2⟩ := enc_buildFiles (printable := printable) (addr := addr) he v upper fuel true files
        (fun _ h => h) (t := []) (fun _ h => nomatch h) 0
      simp only [hfl]
      rw [← hfl]
      generalize buildFilesV v upper fs fuel true files [] 0 = p at h1 h2
      obtain ⟨o, t, n, r⟩ := p
      cases r with
      | error e => exact h1
      | ok u =>
        have h3 := enc_found (printable := printable) (addr := addr) he h2 hex symbol none begin end_ fuzzy
        simp only
        generalize findSymbolDef extract t symbol none begin end_ fuzzy = q at h3
        obtain ⟨r, n⟩ := q
        refine encMsgs_append h1 (encMsgs_msgs ?_)
        intro m hm x hx
        rcases List.mem_append.1 hm with hm | hm
        · rw [List.eq_of_mem_replicate hm] at hx
          cases hx
        · have : m = .found r := by
            split at hm
            · cases hm
            · cases hm
            · cases hm
            · exact List.mem_singleton.1 hm
          rw [this] at hx
          have hx : x ∈ [r.text printable addr] := hx
          rw [List.mem_singleton.1 hx]
          exact h3

theorem enc_checkSymbols (v : Bool) (upper : Str → Str) {extract : Str → List Str → Nat → List Str}
    (hex : Chooses extract) (fuel : Nat) (complex : Bool) :
    EncMsgs enc (symOutText printable addr)
      (checkSymbolsV v upper extract fs fuel complex files).1 := by
  unfold checkSymbolsV
  split
  · exact encMsgs_nil
  · obtain ⟨h1, h2⟩ := enc_buildFiles (printable := printable) (addr := addr) he v upper fuel true files
      (fun _ h => h) (t := []) (fun _ h => nomatch h) 0
    generalize buildFilesV v upper fs fuel true files [] 0 = p at h1 h2
    obtain ⟨o, t, n, r⟩ := p
    cases r with
    | error e => exact h1
    | ok u =>
      have hc : ∀ s ∈ checkSymbolTable t complex, EncLine enc s := by
        intro s hs
        exact enc_keys h2 s (List.mem_filter.1 ((pySortedStr_perm _).mem_iff.1 hs)).1
      simp only
      refine encMsgs_append h1 (encMsgs_msgs ?_)
      intro m hm x hx
      split at hx
      swap
      · cases hx
      rename_i ho
      rcases List.mem_append.1 hm with hm | hm
      · rcases List.mem_append.1 hm with hm | hm
        · obtain ⟨s, -, rfl⟩ := List.mem_map.1 hm
          cases ho
        · unfold undefinedMsgs at hm
          split at hm
          · rcases List.mem_append.1 hm with hm | hm
            · rcases List.mem_cons.1 hm with rfl | hm
              · cases ho
              · obtain ⟨s, hs, rfl⟩ := List.mem_map.1 hm
                have hl : ∀ w ∈ matchesOf (findSymbolDef extract t s none false false true),
                    EncLine enc w := by
                  have := (enc_find h2 hex s none false false true).1
                  generalize findSymbolDef extract t s none false false true = q at this
                  obtain ⟨r, n⟩ := q
                  cases r with
                  | names l => exact this l rfl
                  | nothing => intro w hw; cases hw
                  | defs d => intro w hw; cases hw
                generalize matchesOf (findSymbolDef extract t s none false false true) = l at hl ho hx
                cases l with
                | nil => cases ho
                | cons w l =>
                  simp only [SymMsg.text, List.mem_singleton] at hx
                  subst hx
                  exact encLine_append (encLine_append (encLine_append (encLine_ascii he.ascii (by decide))
                    (hc s hs)) (encLine_ascii he.ascii (by decide)))
                    (encLine_join (encLine_ascii he.ascii (by decide)) hl)
            · rw [List.mem_singleton.1 hm] at ho
              cases ho
          · cases hm
      · split at hm
        · rw [List.mem_singleton.1 hm] at ho
          cases ho
        · cases hm

end

/-! ### C244 -/

/-- C244 in full for list-symbols: whatever characters the sources hold, a standard output that has all
characters of ASCII gets all that there is to say, and the script ends as on an output that has all
characters. -/
def C244_statement : Prop :=
  ∀ (enc printable : Char → Bool) (addr : CodeCard → Nat) (v : Bool) (upper : Str → Str)
    (fs : FileSystem) (fuel : Nat) (args : List Str),
    (∀ c : Char, c.toNat < 128 → enc c = true) →
    symIn enc printable addr (listSymbolsV v upper fs fuel args) =
      (symStdout printable addr (listSymbolsV v upper fs fuel args).1,
        (listSymbolsV v upper fs fuel args).2)

/-- C244: if the output has all characters of ASCII, of the names given and of the files that are read,
list-symbols prints all that it has to say. -/
theorem C244_list_partial (enc printable : Char → Bool) (addr : CodeCard → Nat) (v : Bool)
    (upper : Str → Str) (fs : FileSystem) (fuel : Nat) (args : List Str) (he : CanEncode enc fs args) :
    symIn enc printable addr (listSymbolsV v upper fs fuel args) =
      (symStdout printable addr (listSymbolsV v upper fs fuel args).1,
        (listSymbolsV v upper fs fuel args).2) :=
  printIn_msgs (enc_listSymbols he v upper fuel) _

/-- C244: so does find-symbols, whatever the symbol, which it does not print on the standard output. -/
theorem C244_find_partial (enc printable : Char → Bool) (addr : CodeCard → Nat) (v : Bool)
    (upper : Str → Str) (extract : Str → List Str → Nat → List Str) (hex : Chooses extract)
    (fs : FileSystem) (fuel : Nat) (begin end_ fuzzy exact_ : Bool) (symbol : Str) (files : List Str)
    (he : CanEncode enc fs files) :
    symIn enc printable addr
        (findSymbolsV v upper extract fs fuel begin end_ fuzzy exact_ (symbol :: files)) =
      (symStdout printable addr
        (findSymbolsV v upper extract fs fuel begin end_ fuzzy exact_ (symbol :: files)).1,
        (findSymbolsV v upper extract fs fuel begin end_ fuzzy exact_ (symbol :: files)).2) :=
  printIn_msgs (enc_findSymbols he v upper hex fuel begin end_ fuzzy exact_ symbol) _

/-- C244: so does check-symbols. -/
theorem C244_check_partial (enc printable : Char → Bool) (addr : CodeCard → Nat) (v : Bool)
    (upper : Str → Str) (extract : Str → List Str → Nat → List Str) (hex : Chooses extract)
    (fs : FileSystem) (fuel : Nat) (complex : Bool) (args : List Str) (he : CanEncode enc fs args) :
    symIn enc printable addr (checkSymbolsV v upper extract fs fuel complex args) =
      (symStdout printable addr (checkSymbolsV v upper extract fs fuel complex args).1,
        (checkSymbolsV v upper extract fs fuel complex args).2) :=
  printIn_msgs (enc_checkSymbols he v upper hex fuel complex) _

/-- A file with two labels; the second has an accent. -/
def accentTag : FileSystem := fun f =>
  if f = py "A.arg" then some (py "        ALPHA      TX\n        ZÉRO       TX\n") else none

/-- C244 does not hold: the output has ASCII, and the second symbol cannot be written. -/
theorem C244_refuted : ¬ C244_statement := by
  intro h
  have h := h (fun c => decide (c.toNat < 128)) (fun _ => true) (fun _ => 0) false id accentTag 10
    [py "A.arg"] fun c hc => decide_eq_true hc
  revert h
  decide +kernel

/-- The first symbol is printed, and the script stops. -/
example : ((symIn (fun c => decide (c.toNat < 128)) (fun _ => true) (fun _ => 0)
    (listSymbolsV false id accentTag 10 [py "A.arg"])).1.take 6 = py "ALPHA\n") ∧
    (symIn (fun c => decide (c.toNat < 128)) (fun _ => true) (fun _ => 0)
      (listSymbolsV false id accentTag 10 [py "A.arg"])).2 = .error .valueError := by
  decide +kernel

/-- Latin-1 has all characters of this file, and all is printed. -/
example : CanEncode (fun c => decide (c.toNat < 256)) accentTag [py "A.arg"] ∧
    (symIn (fun c => decide (c.toNat < 256)) (fun _ => true) (fun _ => 0)
      (listSymbolsV false id accentTag 10 [py "A.arg"])).2 = .ok () := by
  refine ⟨⟨fun c hc => decide_eq_true (by omega), by decide, ?_⟩, by decide +kernel⟩
  intro f _ text ht
  unfold accentTag at ht
  split at ht
  · cases ht
    decide
  · cases ht

/-- The names that begin so: found in Latin-1, an error in ASCII. A finder that chooses. -/
example : Chooses (fun _ cs n => cs.take n) ∧
    symIn (fun c => decide (c.toNat < 256)) (fun _ => true) (fun _ => 0)
      (findSymbolsV false id (fun _ cs n => cs.take n) accentTag 10 true false false false
        [py "Z", py "A.arg"]) = (py "['ZÉRO']\n", .ok ()) ∧
    symIn (fun c => decide (c.toNat < 128)) (fun _ => true) (fun _ => 0)
      (findSymbolsV false id (fun _ cs n => cs.take n) accentTag 10 true false false false
        [py "Z", py "A.arg"]) = ([], .error .valueError) := by
  refine ⟨fun q cs n => ⟨by simp, fun x hx => List.mem_of_mem_take hx⟩, ?_, ?_⟩ <;> decide +kernel

/-- Characters that are not printable are written with escapes, also in ASCII. -/
example : symIn (fun c => decide (c.toNat < 128)) (fun _ => false) (fun _ => 0)
      (findSymbolsV false id (fun _ cs n => cs.take n) accentTag 10 true false false false
        [py "Z", py "A.arg"]) = (py "['Z\\xc9RO']\n", .ok ()) := by
  decide +kernel

end H800
