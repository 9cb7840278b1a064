import Verif.Model.HandedOut
import Verif.Lemmas.Decks

/-!
Property C233: what a caller does with the lists and records that a deck hands out.
-/

namespace H800

open Spec

/-! ### C233 -/

/-- Two states in which a deck reads in the same way. -/
structure ReadsAlike (s s' : DeckObj) : Prop where
  lines : s.lines = s'.lines
  cards : ∀ i, s.cardAt i = s'.cardAt i
  fields : ∀ i, s.fieldsAt i = s'.fieldsAt i
  stripped : ∀ i, s.strippedAt i = s'.strippedAt i
  records : ∀ i, s.recordAt i = s'.recordAt i
  text : s.toStr = s'.toStr

/-- C233, the property as stated: nothing that a caller does with the lists and records that a deck hands
out, or with the list that it was made from, changes the deck. -/
def C233_statement : Prop :=
  ∀ (fs : FileSystem) (fuel : Nat) (lines : Option (List Str)) (file : Option Str) (width : Int)
    (fields : List Int) (cls : CardClass) (d : Deck) (ops : List DeckOp),
    Deck.init fs fuel lines file width fields cls = .ok d →
    ReadsAlike ((DeckObj.make lines file d).run ops) (DeckObj.make lines file d)

/-- The operation leaves the lists of the deck alone. -/
def KeepsLists : DeckOp → Prop
  | .cards _ | .fields _ | .strippedFields _ | .records _ => False
  | _ => True

/-- The operation changes an object of the card at `i`. -/
def Touches (i : Nat) : DeckOp → Prop
  | .card j _ | .listed j _ => j = i
  | _ => False

namespace DeckObj

theorem changeAt_refs (s : DeckObj) (r : Option (Option Nat)) (p : CardPart) :
    (s.changeAt r p).given = s.given ∧ (s.changeAt r p).own = s.own ∧ (s.changeAt r p).cards = s.cards ∧
    (s.changeAt r p).fields = s.fields ∧ (s.changeAt r p).strippedFields = s.strippedFields ∧
    (s.changeAt r p).records = s.records := by
  unfold changeAt
  split <;> exact ⟨rfl, rfl, rfl, rfl, rfl, rfl⟩

/-- What is changed in an object of a card. -/
theorem changeAt_deref (s : DeckObj) (r q : Option (Option Nat)) (p : CardPart) :
    (s.changeAt r p).deref q = if q = r then (s.deref q).map p.change else s.deref q := by
  unfold changeAt deref
  split
  · rename_i j
    rcases q with _ | _ | k
    · simp
    · simp
    · simp only [Option.join_some, Option.bind_some, List.getElem?_modify, Option.some.injEq]
      by_cases h : j = k
      · subst h; simp
      · have : ¬ k = j := fun e => h e.symm
        simp [h, this]
  · rename_i hr
    split
    · rename_i h
      subst h
      rcases q with _ | _ | k
      · rfl
      · rfl
      · exact absurd rfl (hr k)
    · rfl

theorem make_refs (lines : Option (List Str)) (file : Option Str) (d : Deck) :
    (make lines file d).heap = d.cards ∧ (make lines file d).lines = d.lines ∧
    (make lines file d).cards = (List.range d.cards.length).map some ∧
    (make lines file d).fields = (List.range d.cards.length).map some ∧
    (make lines file d).strippedFields = (List.range d.cards.length).map some ∧
    (make lines file d).records = (List.range d.cards.length).map some := by
  unfold make
  dsimp only
  split <;> exact ⟨rfl, rfl, rfl, rfl, rfl, rfl⟩

/-- The lists of the deck refer to the cards in order. -/
def Ordered (s : DeckObj) : Prop :=
  s.cards = (List.range s.heap.length).map some ∧ s.fields = (List.range s.heap.length).map some ∧
  s.strippedFields = (List.range s.heap.length).map some ∧
  s.records = (List.range s.heap.length).map some

theorem make_ordered (lines : Option (List Str)) (file : Option Str) (d : Deck) :
    (make lines file d).Ordered := by
  obtain ⟨h1, -, h2, h3, h4, h5⟩ := make_refs lines file d
  exact ⟨by rw [h1, h2], by rw [h1, h3], by rw [h1, h4], by rw [h1, h5]⟩

theorem deref_ordered (s : DeckObj) (i : Nat) :
    s.deref ((List.range s.heap.length).map some)[i]? = s.heap[i]? := by
  unfold deref
  by_cases h : i < s.heap.length
  · simp [h]
  · simp [h]

theorem changeAt_heap_length (s : DeckObj) (r : Option (Option Nat)) (p : CardPart) :
    (s.changeAt r p).heap.length = s.heap.length := by
  unfold changeAt
  split
  · simp
  · rfl

theorem changeAt_ordered {s : DeckObj} (h : s.Ordered) (r : Option (Option Nat)) (p : CardPart) :
    (s.changeAt r p).Ordered := by
  obtain ⟨-, -, h1, h2, h3, h4⟩ := s.changeAt_refs r p
  unfold Ordered
  rw [changeAt_heap_length, h1, h2, h3, h4]
  exact h

theorem step_ordered {s : DeckObj} (h : s.Ordered) {op : DeckOp} (ho : KeepsLists op) :
    (s.step op).Ordered := by
  cases op with
  | given f => exact h
  | lines f => simp only [step]; split <;> exact h
  | cards f => exact ho.elim
  | fields f => exact ho.elim
  | strippedFields f => exact ho.elim
  | records f => exact ho.elim
  | card i p => exact changeAt_ordered h _ _
  | listed i p =>
    cases p with
    | layout f => exact h
    | fields f => exact changeAt_ordered h _ _
    | stripped f => exact changeAt_ordered h _ _
    | record f => exact changeAt_ordered h _ _

theorem run_ordered {ops : List DeckOp} : ∀ {s : DeckObj}, s.Ordered → (∀ op ∈ ops, KeepsLists op) →
    (s.run ops).Ordered := by
  induction ops with
  | nil => exact fun h _ => h
  | cons op ops ih =>
    intro s h ho
    exact ih (step_ordered h (ho op (by simp))) fun o hm => ho o (by simp [hm])

end DeckObj

theorem init_collect {fs : FileSystem} {fuel : Nat} {lines : Option (List Str)} {file : Option Str}
    {width : Int} {fields : List Int} {cls : CardClass} {d : Deck}
    (h : Deck.init fs fuel lines file width fields cls = .ok d) :
    ∃ ls cs, Deck.collect ls cs = .ok d := by
  unfold Deck.init at h
  split at h
  · cases h
  · rename_i c cs
    cases hr : Deck.readSource fs cls width fields fuel true (c :: cs) with
    | error e => rw [hr] at h; cases h
    | ok cards => rw [hr] at h; exact ⟨_, _, h⟩
  · cases h
  · rename_i ls _
    cases hr : Deck.fromLines cls width fields file 0 ls with
    | error e => rw [hr] at h; cases h
    | ok cards => rw [hr] at h; exact ⟨_, _, h⟩

theorem bodies_get {cs : List PunchCard} {bs : List CardBody} (h : cs.mapM PunchCard.getBody = .ok bs) :
    ∀ i : Nat, bs[i]? = (cs[i]?).bind PunchCard.body := by
  induction cs generalizing bs with
  | nil => rw [List.mapM_nil] at h; cases h; exact fun i => rfl
  | cons c cs ih =>
    rw [List.mapM_cons] at h
    cases hb : c.body with
    | none =>
      have : c.getBody = .error .attributeError := by unfold PunchCard.getBody; rw [hb]
      rw [this] at h; cases h
    | some b =>
      have : c.getBody = .ok b := by unfold PunchCard.getBody; rw [hb]
      rw [this] at h
      cases hm : cs.mapM PunchCard.getBody with
      | error e => rw [hm] at h; cases h
      | ok bs' =>
        rw [hm] at h
        cases h
        intro i
        cases i with
        | zero => simp [hb]
        | succ i => simpa using ih hm i

theorem mapM_option_map {α β γ : Type} (f : α → Option β) (g : β → γ) (l : List α) :
    (l.mapM fun a => (f a).map g) = (l.mapM f).map (·.map g) := by
  induction l with
  | nil => rfl
  | cons a l ih =>
    rw [List.mapM_cons, List.mapM_cons, ih]
    cases f a with
    | none => rfl
    | some b => cases l.mapM f <;> rfl

/-- The text is made of the lines of the cards. -/
theorem deckText_eq (s : DeckObj) : s.toStr =
    (s.cards.mapM fun r : Option Nat => r.bind ((s.heap.map PunchCard.toStr)[·]?)).map (joinWith '\n') := by
  have : (fun r : Option Nat => r.bind ((s.heap.map PunchCard.toStr)[·]?)) =
      fun r => (s.deref (some r)).map PunchCard.toStr := by
    funext r
    rcases r with _ | k
    · rfl
    · simp [DeckObj.deref]
  rw [this, mapM_option_map]
  unfold DeckObj.toStr
  cases s.cards.mapM fun r => s.deref (some r) <;> rfl

theorem range_mapM {α : Type} (l : List α) :
    (((List.range l.length).map some).mapM fun r : Option Nat => r.bind (l[·]?)) = some l := by
  have : ∀ n : Nat, n ≤ l.length →
      (((List.range n).map some).mapM fun r : Option Nat => r.bind (l[·]?)) = some (l.take n) := by
    intro n
    induction n with
    | zero => intro _; rfl
    | succ n ih =>
      intro hn
      rw [List.range_succ, List.map_append, List.mapM_append, ih (by omega)]
      simp only [List.map_cons, List.map_nil, List.mapM_cons, List.mapM_nil, Option.bind_some]
      rw [List.getElem?_eq_getElem (show n < l.length by omega), List.take_succ_eq_append_getElem (by omega)]
      rfl
  simpa using this l.length le_rfl

/-- C233: the deck reads as it was made: the fields, stripped fields and records are those of its cards. -/
theorem C233_made (fs : FileSystem) (fuel : Nat) (lines : Option (List Str)) (file : Option Str)
    (width : Int) (fields : List Int) (cls : CardClass) (d : Deck)
    (h : Deck.init fs fuel lines file width fields cls = .ok d) :
    (DeckObj.make lines file d).lines = d.lines ∧ (DeckObj.make lines file d).toStr = some d.toStr ∧
    ∀ i, (DeckObj.make lines file d).cardAt i = d.cards[i]? ∧
      (DeckObj.make lines file d).fieldsAt i = d.fields[i]? ∧
      (DeckObj.make lines file d).strippedAt i = d.strippedFields[i]? ∧
      (DeckObj.make lines file d).recordAt i = d.records[i]? := by
  obtain ⟨ls, cs, hc⟩ := init_collect h
  obtain ⟨-, rfl, bs, hb, hf, hs, hr⟩ := collect_cards hc
  have hg := bodies_get hb
  obtain ⟨h1, h2, h3, h4, h5, h6⟩ := DeckObj.make_refs lines file d
  have ho : ∀ i : Nat, (DeckObj.make lines file d).deref ((List.range d.cards.length).map some)[i]? = d.cards[i]? := by
    intro i
    have := (DeckObj.make lines file d).deref_ordered i
    rw [h1] at this
    exact this
  refine ⟨h2, ?_, fun i => ⟨?_, ?_, ?_, ?_⟩⟩
  · rw [deckText_eq, h1, h3]
    rw [show (List.range d.cards.length) = List.range (d.cards.map PunchCard.toStr).length by simp, range_mapM]
    rfl
  · rw [DeckObj.cardAt, h3, ho]
  · rw [DeckObj.fieldsAt, h4, ho, hf, List.getElem?_map, hg]
    cases d.cards[i]? <;> rfl
  · rw [DeckObj.strippedAt, h5, ho, hs, List.getElem?_map, hg]
    cases d.cards[i]? <;> rfl
  · rw [DeckObj.recordAt, h6, ho, hr, List.getElem?_map, hg]
    cases d.cards[i]? <;> rfl

/-- C233: `str(deck)` is the same whatever is done, unless the list of the cards is changed. -/
theorem C233_text_partial (s : DeckObj) (ops : List DeckOp) (h : ∀ op ∈ ops, ∀ f, op ≠ .cards f) :
    (s.run ops).toStr = s.toStr := by
  have key : ∀ ops : List DeckOp, (∀ op ∈ ops, ∀ f, op ≠ .cards f) → ∀ s : DeckObj,
      (s.run ops).cards = s.cards ∧
        (s.run ops).heap.map PunchCard.toStr = s.heap.map PunchCard.toStr := by
    intro ops
    induction ops with
    | nil => exact fun _ s => ⟨rfl, rfl⟩
    | cons op ops ih =>
      intro h s
      have hc : ∀ r p, (s.changeAt r p).cards = s.cards ∧
          (s.changeAt r p).heap.map PunchCard.toStr = s.heap.map PunchCard.toStr := by
        intro r p
        refine ⟨(s.changeAt_refs r p).2.2.1, ?_⟩
        unfold DeckObj.changeAt
        split
        · apply List.ext_getElem?
          intro i
          simp only [List.getElem?_map, List.getElem?_modify]
          cases s.heap[i]? with
          | none => rfl
          | some c =>
            simp only [Option.map_some]
            split
            · cases p <;> rfl
            · rfl
        · rfl
      have hs : (s.step op).cards = s.cards ∧
          (s.step op).heap.map PunchCard.toStr = s.heap.map PunchCard.toStr := by
        cases op with
        | given f => exact ⟨rfl, rfl⟩
        | lines f => simp only [DeckObj.step]; split <;> exact ⟨rfl, rfl⟩
        | cards f => exact absurd rfl (h _ (by simp) f)
        | fields f => exact ⟨rfl, rfl⟩
        | strippedFields f => exact ⟨rfl, rfl⟩
        | records f => exact ⟨rfl, rfl⟩
        | card i p => exact hc _ _
        | listed i p =>
          cases p with
          | layout f => exact ⟨rfl, rfl⟩
          | fields f => exact hc _ _
          | stripped f => exact hc _ _
          | record f => exact hc _ _
      have := ih (fun o ho => h o (by simp [ho])) (s.step op)
      exact ⟨this.1.trans hs.1, this.2.trans hs.2⟩
  rw [deckText_eq, deckText_eq, (key ops h s).1, (key ops h s).2]

/-- C233: as long as the lists of the deck are not changed, the fields, stripped fields and records that the
deck hands out are those of its cards, whatever is done to them. -/
theorem C233_shared_partial (lines : Option (List Str)) (file : Option Str) (d : Deck)
    (ops : List DeckOp) (h : ∀ op ∈ ops, KeepsLists op) (i : Nat) :
    ((DeckObj.make lines file d).run ops).fieldsAt i =
      (((DeckObj.make lines file d).run ops).cardAt i).bind (fun c => c.body.map (·.fields)) ∧
    ((DeckObj.make lines file d).run ops).strippedAt i =
      (((DeckObj.make lines file d).run ops).cardAt i).bind (fun c => c.body.map (·.stripped)) ∧
    ((DeckObj.make lines file d).run ops).recordAt i =
      (((DeckObj.make lines file d).run ops).cardAt i).bind (fun c => c.body.map (·.record)) := by
  obtain ⟨h1, h2, h3, h4⟩ := DeckObj.run_ordered (DeckObj.make_ordered lines file d) h
  unfold DeckObj.fieldsAt DeckObj.strippedAt DeckObj.recordAt DeckObj.cardAt
  rw [h1, h2, h3, h4]
  exact ⟨rfl, rfl, rfl⟩

/-- C233: a change of what one card or the deck hands out at one place changes that card there and no
other. -/
theorem C233_effect_partial (lines : Option (List Str)) (file : Option Str) (d : Deck)
    (ops : List DeckOp) (h : ∀ op ∈ ops, KeepsLists op) (i j : Nat) (p : CardPart) :
    ((DeckObj.make lines file d).run (ops ++ [.card i p])).cardAt j =
      (if j = i then (((DeckObj.make lines file d).run ops).cardAt j).map p.change
       else ((DeckObj.make lines file d).run ops).cardAt j) ∧
    ((∀ f, p ≠ .layout f) → ((DeckObj.make lines file d).run (ops ++ [.listed i p])).cardAt j =
      ((DeckObj.make lines file d).run (ops ++ [.card i p])).cardAt j) := by
  have ho := DeckObj.run_ordered (DeckObj.make_ordered lines file d) h
  have hrun : ∀ op, (DeckObj.make lines file d).run (ops ++ [op]) =
      ((DeckObj.make lines file d).run ops).step op := by
    intro op
    simp [DeckObj.run, List.foldl_append]
  rw [hrun, hrun]
  generalize (DeckObj.make lines file d).run ops = s at ho ⊢
  obtain ⟨h1, h2, h3, h4⟩ := ho
  refine ⟨?_, fun hp => ?_⟩
  · unfold DeckObj.cardAt
    simp only [DeckObj.step]
    rw [(s.changeAt_refs _ p).2.2.1, DeckObj.changeAt_deref, h1, DeckObj.deref_ordered]
    by_cases hij : j = i
    · subst hij; simp
    · rw [if_neg hij]
      split
      · rename_i he
        by_cases hl : j < s.heap.length
        · by_cases hl' : i < s.heap.length
          · simp [hl, hl', hij] at he
          · simp [hl, hl'] at he
        · rw [List.getElem?_eq_none (by omega)]; rfl
      · rfl
  · unfold DeckObj.cardAt
    cases p with
    | layout f => exact absurd rfl (hp f)
    | fields f =>
      simp only [DeckObj.step]
      rw [h1, h2]
    | stripped f =>
      simp only [DeckObj.step]
      rw [h1, h3]
    | record f =>
      simp only [DeckObj.step]
      rw [h1, h4]

/-- C233: what the change of one part of a card does to what the card hands out: that part is changed, all
others stay. -/
theorem C233_parts_partial (lines : Option (List Str)) (file : Option Str) (d : Deck)
    (ops : List DeckOp) (h : ∀ op ∈ ops, KeepsLists op) (i : Nat) (p : CardPart) (c : PunchCard)
    (hc : ((DeckObj.make lines file d).run ops).cardAt i = some c) :
    ∃ c', ((DeckObj.make lines file d).run (ops ++ [.card i p])).cardAt i = some c' ∧
      c'.line = c.line ∧ c'.filename = c.filename ∧ c'.linenum = c.linenum ∧
      c'.isComment = c.isComment ∧
      c'.layout = (match p with | .layout f => f c.layout | _ => c.layout) ∧
      c'.body.map (·.fields) =
        c.body.map (fun b => match p with | .fields f => f b.fields | _ => b.fields) ∧
      c'.body.map (·.stripped) =
        c.body.map (fun b => match p with | .stripped f => f b.stripped | _ => b.stripped) ∧
      c'.body.map (·.record) =
        c.body.map (fun b => match p with | .record f => f b.record | _ => b.record) := by
  refine ⟨p.change c, ?_, ?_⟩
  · rw [(C233_effect_partial lines file d ops h i i p).1, if_pos rfl, hc]; rfl
  · cases p <;> cases hb : c.body <;> simp [CardPart.change, hb]

/-- C233: a card of which nothing is changed stays as it was, whatever is done to others. -/
theorem C233_others_partial (lines : Option (List Str)) (file : Option Str) (d : Deck)
    (ops : List DeckOp) (h : ∀ op ∈ ops, KeepsLists op) (j : Nat) (hj : ∀ op ∈ ops, ¬ Touches j op) :
    ((DeckObj.make lines file d).run ops).cardAt j = (DeckObj.make lines file d).cardAt j := by
  induction ops using List.reverseRecOn with
  | nil => rfl
  | append_singleton ops op ih =>
    have hk : ∀ op ∈ ops, KeepsLists op := fun o ho => h o (by simp [ho])
    rw [← ih hk fun o ho => hj o (by simp [ho])]
    have ht : ¬ Touches j op := hj op (by simp)
    have ho : KeepsLists op := h op (by simp)
    have hrun : (DeckObj.make lines file d).run (ops ++ [op]) =
        ((DeckObj.make lines file d).run ops).step op := by
      simp [DeckObj.run, List.foldl_append]
    cases op with
    | given f => rw [hrun]; rfl
    | lines f => rw [hrun]; simp only [DeckObj.step]; split <;> rfl
    | cards f => exact ho.elim
    | fields f => exact ho.elim
    | strippedFields f => exact ho.elim
    | records f => exact ho.elim
    | card i p =>
      rw [(C233_effect_partial lines file d ops hk i j p).1, if_neg fun e => ht e.symm]
    | listed i p =>
      by_cases hp : ∃ f, p = .layout f
      · obtain ⟨f, rfl⟩ := hp
        rw [hrun]; rfl
      · rw [(C233_effect_partial lines file d ops hk i j p).2 fun f e => hp ⟨f, e⟩,
          (C233_effect_partial lines file d ops hk i j p).1, if_neg fun e => ht e.symm]

/-- C233: a deck made from a list holds this list, so what is done to one is done to the other; of a deck
made from a file the lines are its own. -/
theorem C233_lines_partial (lines : Option (List Str)) (file : Option Str) (d : Deck) (ops : List DeckOp) :
    (file.getD [] = [] → ((DeckObj.make lines file d).run ops).lines =
      ((DeckObj.make lines file d).run ops).given) ∧
    (file.getD [] ≠ [] →
      ((∀ op ∈ ops, ∀ f, op ≠ .lines f) → ((DeckObj.make lines file d).run ops).lines = d.lines) ∧
      ((∀ op ∈ ops, ∀ f, op ≠ .given f) → ((DeckObj.make lines file d).run ops).given = lines.getD [])) := by
  have own : ∀ (ops : List DeckOp) (s : DeckObj), (s.own = none → (s.run ops).own = none) ∧
      (∀ l, s.own = some l → (∃ l', (s.run ops).own = some l') ∧
        ((∀ op ∈ ops, ∀ f, op ≠ .lines f) → (s.run ops).own = some l) ∧
        ((∀ op ∈ ops, ∀ f, op ≠ .given f) → (s.run ops).given = s.given)) := by
    intro ops
    induction ops with
    | nil => exact fun s => ⟨id, fun l h => ⟨⟨l, h⟩, fun _ => h, fun _ => rfl⟩⟩
    | cons op ops ih =>
      intro s
      have hs : (s.own = none → (s.step op).own = none) ∧
          (∀ l, s.own = some l → (∃ l', (s.step op).own = some l') ∧
            ((∀ f, op ≠ .lines f) → (s.step op).own = some l) ∧
            ((∀ f, op ≠ .given f) → (s.step op).given = s.given)) := by
        have hc : ∀ r p, (s.own = none → (s.changeAt r p).own = none) ∧
          (∀ l, s.own = some l → (∃ l', (s.changeAt r p).own = some l') ∧
            ((∀ f, op ≠ .lines f) → (s.changeAt r p).own = some l) ∧
            ((∀ f, op ≠ .given f) → (s.changeAt r p).given = s.given)) := by
          intro r p
          rw [(s.changeAt_refs r p).1, (s.changeAt_refs r p).2.1]
          exact ⟨id, fun l h => ⟨⟨l, h⟩, fun _ => h, fun _ => rfl⟩⟩
        cases op with
        | given f => exact ⟨id, fun l h => ⟨⟨l, h⟩, fun _ => h, fun hn => absurd rfl (hn f)⟩⟩
        | lines f =>
          simp only [DeckObj.step]
          split
          · rename_i l' hl'
            exact ⟨fun h => (by rw [hl'] at h; cases h),
              fun l h => ⟨⟨_, rfl⟩, fun hn => absurd rfl (hn f), fun _ => rfl⟩⟩
          · rename_i hn
            exact ⟨fun _ => hn, fun l h => (by rw [hn] at h; cases h)⟩
        | cards f => exact ⟨id, fun l h => ⟨⟨l, h⟩, fun _ => h, fun _ => rfl⟩⟩
        | fields f => exact ⟨id, fun l h => ⟨⟨l, h⟩, fun _ => h, fun _ => rfl⟩⟩
        | strippedFields f => exact ⟨id, fun l h => ⟨⟨l, h⟩, fun _ => h, fun _ => rfl⟩⟩
        | records f => exact ⟨id, fun l h => ⟨⟨l, h⟩, fun _ => h, fun _ => rfl⟩⟩
        | card i p => exact hc _ _
        | listed i p =>
          cases p with
          | layout f => exact ⟨id, fun l h => ⟨⟨l, h⟩, fun _ => h, fun _ => rfl⟩⟩
          | fields f => exact hc _ _
          | stripped f => exact hc _ _
          | record f => exact hc _ _
      refine ⟨fun h => (ih (s.step op)).1 (hs.1 h), fun l h => ?_⟩
      obtain ⟨⟨l', h1⟩, h2, h3⟩ := hs.2 l h
      obtain ⟨i1, i2, i3⟩ := (ih (s.step op)).2 l' h1
      refine ⟨i1, fun hn => ?_, fun hn => ?_⟩
      · have e := h2 (hn op (by simp))
        rw [h1] at e
        cases e
        exact i2 fun o ho => hn o (by simp [ho])
      · exact (i3 fun o ho => hn o (by simp [ho])).trans (h3 (hn op (by simp)))
  have none_case : ∀ s : DeckObj, s.own = none → (s.run ops).lines = (s.run ops).given := by
    intro s h
    rw [DeckObj.lines, (own ops s).1 h]; rfl
  rcases file with _ | _ | ⟨c, cs⟩
  · exact ⟨fun _ => none_case _ rfl, fun h => absurd rfl h⟩
  · exact ⟨fun _ => none_case _ rfl, fun h => absurd rfl h⟩
  · refine ⟨fun h => absurd h (by simp), fun _ => ?_⟩
    obtain ⟨-, h2, h3⟩ := (own ops (DeckObj.make lines (some (c :: cs)) d)).2 d.lines rfl
    exact ⟨fun hn => by rw [DeckObj.lines, h2 hn]; rfl, h3⟩

/-- Two cards of two columns each, with a comment between. -/
def handedLines : List Str := [py "AB", py "#", py "C "]

def handedDeck : Py Deck := Deck.init (fun _ => none) 1 (some handedLines) none 2 [1, 2] punchClass

/-- The object made, and what is done to it. -/
def handedRun (ops : List DeckOp) : Py DeckObj :=
  handedDeck.map fun d => (DeckObj.make (some handedLines) none d).run ops

/-- The record of the second card, changed through the list of the records: the card has the new one, the
first card and the text are as before. -/
example : let r := handedRun [.listed 1 (.record fun r => dset r (py "lognum") (.str (py "9")))]
    r.map (fun s => (s.cardAt 1).bind fun c => c.body.map (·.record)) = .ok (some
      [(py "linenum", .int 3), (py "column1", .str (py "C")), (py "lognum", .str (py "9"))]) ∧
    r.map (·.recordAt 0) = .ok (some
      [(py "linenum", .int 1), (py "column1", .str (py "A")), (py "lognum", .str (py "B"))]) ∧
    r.map (·.toStr) = .ok (some (py "AB\nC ")) ∧ r.map (·.lines) = .ok handedLines :=
  ⟨rfl, rfl, rfl, rfl⟩

/-- The list of the cards reversed: the fields stay in order, the text does not. -/
example : (handedRun [.cards List.reverse]).map (fun s => (s.fieldsAt 0, s.toStr)) =
    .ok (some [py "A", py "B"], some (py "C \nAB")) := by decide +kernel

/-- C233 fails: when the list that the deck was made from is changed, so are the lines of the deck. -/
theorem C233_refuted : ¬ C233_statement := by
  intro h
  have hw : (handedRun []).map (·.lines) = .ok handedLines := by decide +kernel
  unfold handedRun at hw
  cases hd : handedDeck with
  | error e => rw [hd] at hw; cases hw
  | ok d =>
    have hl : (DeckObj.make (some handedLines) none d).lines = handedLines := by
      rw [hd] at hw; injection hw
    have := (h _ _ _ _ _ _ _ d [.given fun _ => []] hd).lines
    rw [hl] at this
    exact absurd (show ([] : List Str) = handedLines from this) (by decide)

/-- C233 fails: when a record that the deck hands out is changed, so is the card. -/
theorem C233_refuted_record : ¬ C233_statement := by
  intro h
  have hw : (handedRun []).map (fun s => (s.cardAt 0).isSome && ((s.cardAt 0).bind fun c =>
      c.body.map (·.record)) != some []) = .ok true := by decide +kernel
  have hw' : (handedRun [.listed 0 (.record fun _ => [])]).map (fun s => (s.cardAt 0).bind fun c =>
      c.body.map (·.record)) = .ok (some []) := by decide +kernel
  unfold handedRun at hw hw'
  cases hd : handedDeck with
  | error e => rw [hd] at hw; cases hw
  | ok d =>
    rw [hd] at hw hw'
    have h1 : _ = true := Except.ok.inj hw
    have h2 := Except.ok.inj hw'
    dsimp only at h1 h2
    rw [(h _ _ _ _ _ _ _ d [.listed 0 (.record fun _ => [])] hd).cards 0] at h2
    rw [show (DeckObj.make (some handedLines) none d).run [] = DeckObj.make (some handedLines) none d from rfl,
      h2] at h1
    simp at h1

end H800
