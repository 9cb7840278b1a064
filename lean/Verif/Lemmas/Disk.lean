import Verif.Spec.Disk
import Verif.Lemmas.LastWords
import Verif.Lemmas.Verbose

/-! Lemmas for C215 and C216. -/

namespace H800

open Spec

/-! ### UTF-8 -/

theorem utf8Encode_encoded (s : Str) : utf8Encode s = encoded s := by
  induction s with
  | nil => rfl
  | cons c s ih =>
    have hv : c.toNat < 0x110000 := by
      have := c.valid
      rcases this with h | h
      · exact Nat.lt_of_lt_of_le h (by decide)
      · exact h.2
    rw [utf8Encode, ih]
    show _ = String.utf8EncodeChar c ++ encoded s
    congr 1
    unfold String.utf8EncodeChar
    have e : c.val.toNat = c.toNat := rfl
    simp only [e]
    generalize c.toNat = v at hv
    have k : ∀ a b : Nat, a = b → a.toUInt8 = UInt8.ofNat b := fun a b h => by subst h; rfl
    by_cases h1 : v < 128
    · rw [if_pos h1, if_pos (by omega)]
    · rw [if_neg h1, if_neg (show ¬ v ≤ 127 by omega)]
      by_cases h2 : v < 2048
      · rw [if_pos h2, if_pos (by omega), k _ (v / 64 % 32 + 192) (by omega), k _ (v % 64 + 128) (by omega)]
      · rw [if_neg h2, if_neg (show ¬ v ≤ 2047 by omega)]
        by_cases h3 : v < 65536
        · rw [if_pos h3, if_pos (by omega), k _ (v / 4096 % 16 + 224) (by omega),
            k _ (v / 64 % 64 + 128) (by omega), k _ (v % 64 + 128) (by omega)]
        · rw [if_neg h3, if_neg (show ¬ v ≤ 65535 by omega), k _ (v / 262144 % 8 + 240) (by omega),
            k _ (v / 4096 % 64 + 128) (by omega),
            k _ (v / 64 % 64 + 128) (by omega), k _ (v % 64 + 128) (by omega)]

theorem toNat_toUInt8 {n : Nat} (h : n < 256) : n.toUInt8.toNat = n := by
  simp [Nat.toUInt8, Nat.mod_eq_of_lt h]

theorem ofNat_toNat' (c : Char) {n : Nat} (h : n = c.toNat) : Char.ofNat n = c := by
  rw [h]; exact Char.ofNat_toNat c

theorem utf8Decode_encode (s : Str) : utf8Decode (utf8Encode s) = some s := by
  induction s with
  | nil => rfl
  | cons c s ih =>
    have hv : c.toNat < 0xD800 ∨ (0xDFFF < c.toNat ∧ c.toNat < 0x110000) := c.valid
    rw [utf8Encode]
    generalize hc : c.toNat = v at hv
    split
    · rename_i h
      rw [List.cons_append, List.nil_append, utf8Decode.eq_def]
      dsimp only
      rw [toNat_toUInt8 (by omega), if_pos h, ih, ← hc, Char.ofNat_toNat]
      rfl
    · rename_i h1
      split
      · rename_i h
        rw [utf8Decode.eq_def]
        simp only [List.cons_append, List.nil_append, isCont,
          toNat_toUInt8 (show 192 + v / 64 < 256 by omega), toNat_toUInt8 (show 128 + v % 64 < 256 by omega)]
        rw [if_neg (by omega), if_neg (by omega), if_neg (by simp; omega), if_pos (by omega), ih,
          ofNat_toNat' c (by rw [hc]; omega)]
        rfl
      · rename_i h2
        split
        · rename_i h
          rw [utf8Decode.eq_def]
          simp only [List.cons_append, List.nil_append, isCont,
            toNat_toUInt8 (show 224 + v / 4096 < 256 by omega),
            toNat_toUInt8 (show 128 + v / 64 % 64 < 256 by omega),
            toNat_toUInt8 (show 128 + v % 64 < 256 by omega)]
          rw [if_neg (by omega), if_neg (by omega), if_neg (by simp; omega), if_neg (by omega),
            if_neg (by simp; omega), if_pos (by omega), if_neg (by omega), if_neg (by omega), ih,
            ofNat_toNat' c (by rw [hc]; omega)]
          rfl
        · rename_i h
          rw [utf8Decode.eq_def]
          simp only [List.cons_append, List.nil_append, isCont,
            toNat_toUInt8 (show 240 + v / 262144 < 256 by omega),
            toNat_toUInt8 (show 128 + v / 4096 % 64 < 256 by omega),
            toNat_toUInt8 (show 128 + v / 64 % 64 < 256 by omega),
            toNat_toUInt8 (show 128 + v % 64 < 256 by omega)]
          rw [if_neg (by omega), if_neg (by omega), if_neg (by simp; omega), if_neg (by omega),
            if_neg (by simp; omega), if_neg (by omega), if_neg (by simp; omega), if_neg (by omega),
            if_neg (by omega), if_neg (by omega), ih,
            ofNat_toNat' c (by rw [hc]; omega)]
          rfl

theorem toUInt8_toNat {b : UInt8} {n : Nat} (h : n = b.toNat) : n.toUInt8 = b := by
  subst h
  exact UInt8.ofNat_toNat

theorem toNat_ofNat' {n : Nat} (h : n < 0xD800 ∨ (0xDFFF < n ∧ n < 0x110000)) :
    (Char.ofNat n).toNat = n := by
  have hv : n.isValidChar := h
  unfold Char.ofNat
  rw [dif_pos hv]
  rfl

theorem utf8Encode_decode : ∀ (n : Nat) (bs : List UInt8) (s : Str), bs.length ≤ n →
    utf8Decode bs = some s → utf8Encode s = bs := by
  intro n
  induction n with
  | zero =>
    intro bs s hl h
    rw [List.length_eq_zero_iff.1 (Nat.le_zero.1 hl)] at h ⊢
    cases h
    rfl
  | succ n ih =>
    intro bs s hl h
    cases bs with
    | nil => cases h; rfl
    | cons a rest =>
      have hm : ∀ {rest : List UInt8} {c : Char}, rest.length ≤ n →
          (utf8Decode rest).map (c :: ·) = some s → ∃ t, s = c :: t ∧ utf8Encode t = rest := by
        intro rest c hl h
        cases hr : utf8Decode rest with
        | none => rw [hr] at h; cases h
        | some t => rw [hr] at h; cases h; exact ⟨t, rfl, ih _ _ hl hr⟩
      have ha := a.toNat_lt
      rw [utf8Decode.eq_def] at h
      dsimp only at h
      split at h
      · rename_i h1
        obtain ⟨t, rfl, e⟩ := hm (by simp at hl; omega) h
        rw [utf8Encode, toNat_ofNat' (by omega), if_pos h1, e, toUInt8_toNat rfl]
        rfl
      · split at h
        · cases h
        · split at h
          · cases h
          · rename_i b rest
            have hb := b.toNat_lt
            split at h
            · cases h
            · rename_i h1 h2 h3
              simp only [isCont, Bool.not_eq_true, Bool.not_eq_false', Bool.and_eq_true, decide_eq_true_eq] at h3
              split at h
              · rename_i h4
                obtain ⟨t, rfl, e⟩ := hm (by simp at hl; omega) h
                rw [utf8Encode, toNat_ofNat' (by omega), if_neg (by omega), if_pos (by omega), e,
                  toUInt8_toNat (b := a) (by omega), toUInt8_toNat (b := b) (by omega)]
                rfl
              · split at h
                · cases h
                · rename_i h4 _ c rest
                  have hc := c.toNat_lt
                  split at h
                  · cases h
                  · rename_i h5
                    simp only [isCont, Bool.not_eq_true, Bool.not_eq_false', Bool.and_eq_true,
                      decide_eq_true_eq] at h5
                    split at h
                    · split at h
                      · cases h
                      · split at h
                        · cases h
                        · rename_i h6 h7 h8
                          obtain ⟨t, rfl, e⟩ := hm (by simp at hl; omega) h
                          rw [utf8Encode, toNat_ofNat' (by omega), if_neg (by omega), if_neg (by omega),
                            if_pos (by omega), e,
                            toUInt8_toNat (b := a) (by omega), toUInt8_toNat (b := b) (by omega),
                            toUInt8_toNat (b := c) (by omega)]
                          rfl
                    · split at h
                      · cases h
                      · rename_i h6 _ d rest
                        have hd := d.toNat_lt
                        split at h
                        · cases h
                        · rename_i h7
                          simp only [isCont, Bool.not_eq_true, Bool.not_eq_false', Bool.and_eq_true,
                            decide_eq_true_eq] at h7
                          split at h
                          · cases h
                          · split at h
                            · cases h
                            · split at h
                              · cases h
                              · obtain ⟨t, rfl, e⟩ := hm (by simp at hl; omega) h
                                rw [utf8Encode, toNat_ofNat' (by omega), if_neg (by omega),
                                  if_neg (by omega), if_neg (by omega), e,
                                  toUInt8_toNat (b := a) (by omega), toUInt8_toNat (b := b) (by omega),
                                  toUInt8_toNat (b := c) (by omega), toUInt8_toNat (b := d) (by omega)]
                                rfl

/-- The decoder reads exactly the encodings of texts. -/
theorem utf8Decode_iff {bs : List UInt8} {s : Str} : utf8Decode bs = some s ↔ bs = encoded s := by
  constructor
  · intro h
    rw [← utf8Encode_encoded, utf8Encode_decode _ bs s (Nat.le_refl _) h]
  · rintro rfl
    rw [← utf8Encode_encoded, utf8Decode_encode]

/-! ### Reading -/

/-- The characters stored in the files. -/
def charsOf (disk : Disk) : FileSystem := fun f =>
  match disk f with
  | some (.file bytes) => utf8Decode bytes
  | _ => none

theorem stored_iff {disk : Disk} {chars : FileSystem} : Stored disk chars ↔ chars = charsOf disk := by
  have key : ∀ f s, charsOf disk f = some s ↔ disk f = some (.file (encoded s)) := by
    intro f s
    unfold charsOf
    cases disk f with
    | none => simp
    | some n => cases n with
      | file b => simp [utf8Decode_iff]
      | locked => simp
      | dir => simp
  constructor
  · intro h
    funext f
    exact Option.ext fun s => (h f s).trans (key f s).symm
  · rintro rfl
    exact key

theorem texts_none {disk : Disk} {g : Str} :
    textFiles (charsOf disk) g = none ↔ isFile disk g = false ∨ ∃ s, Unreadable disk g s := by
  unfold textFiles charsOf isFile
  cases h : disk g with
  | none => simp
  | some n => cases n with
    | dir => simp
    | locked => simp; exact ⟨_, .denied h⟩
    | file b =>
      cases hd : utf8Decode b with
      | none =>
        simp only [hd, Option.map_none, true_iff]
        exact .inr ⟨_, .decode h fun s e => by rw [utf8Decode_iff.2 e] at hd; cases hd⟩
      | some s =>
        simp only [hd, Option.map_some, reduceCtorEq, Bool.true_eq_false, false_or, false_iff]
        rintro ⟨s', h'⟩
        cases h' with
        | denied h' => rw [h] at h'; cases h'
        | decode h' hn =>
          rw [h] at h'; cases h'
          exact hn s (utf8Decode_iff.1 hd)

theorem unreadable_file {disk : Disk} {g : Str} {s : Stop} (h : Unreadable disk g s) :
    isFile disk g = true := by
  cases h with
  | denied h => simp [isFile, h]
  | decode h _ => simp [isFile, h]

/-- How a run on the disk and a run on the texts compare. -/
inductive DiskRel (disk : Disk) (v q : Bool) {α β : Type} :
    List (VMsg α) × Except Stop β → List (VMsg α) × Py β → Except (Option Str) Unit → Prop
  | ok (out : List (VMsg α)) (b : β) : DiskRel disk v q (out, .ok b) (out, .ok b) (.ok ())
  | raised (out : List (VMsg α)) (e : PyErr) :
      DiskRel disk v q (out, .error (.raised e)) (out, .error e) (.error none)
  | exit (out : List (VMsg α)) {g t : Str} : isFile disk g = false → MissingText g t →
      DiskRel disk v q (out, .error (.exit t)) (out, .error .systemExit) (.error (some t))
  | cut (out : List (VMsg α)) {g t : Str} {s : Stop} : Unreadable disk g s → MissingText g t →
      DiskRel disk v q (out ++ (if v && s == .decode then [.reading g] else []), .error s)
        (out, .error .systemExit) (.error (some t))
  | deep (out : List (VMsg α)) {g t : Str} {s : Stop} : Unreadable disk g s → MissingText g t → q = true →
      DiskRel disk v q (out, .error (.raised .recursionError)) (out, .error .systemExit) (.error (some t))
  | lost (x : List (VMsg α) × Except Stop β) (out : List (VMsg α)) : q = false →
      DiskRel disk v q x (out, .error .recursionError) (.error none)

section
variable {disk : Disk} {v q : Bool} {α β : Type}

theorem diskRel_pre {x : List (VMsg α) × Except Stop β} {y : List (VMsg α) × Py β}
    {z : Except (Option Str) Unit} (pre : List (VMsg α)) (h : DiskRel disk v q x y z) :
    DiskRel disk v q (pre ++ x.1, x.2) (pre ++ y.1, y.2) z := by
  cases h with
  | ok out b => exact .ok _ b
  | raised out e => exact .raised _ e
  | exit out h1 h2 => exact .exit _ h1 h2
  | cut out h1 h2 =>
    have := DiskRel.cut (disk := disk) (v := v) (q := q) (β := β) (pre ++ out) h1 h2
    rwa [List.append_assoc] at this
  | deep out h1 h2 h => exact .deep _ h1 h2 h
  | lost x out h => exact .lost _ _ h

theorem readLoopD_comment (read : Str → List (VMsg α) × Except Stop (List PunchCard)) (file : Str)
    (i : Nat) (l : Str) (ls : List Str) :
    readLoopD v disk read file i (('#' :: l) :: ls) =
      ((if v then [.meta_ file (i + 1)] else []) ++ (readLoopD v disk read file (i + 1) ls).1,
        (readLoopD v disk read file (i + 1) ls).2) := by
  rw [readLoopD]
  simp [startsWith]

theorem readLoopD_include (read : Str → List (VMsg α) × Except Stop (List PunchCard)) (file : Str)
    (i : Nat) (l : Str) (ls : List Str) :
    readLoopD v disk read file i (('$' :: l) :: ls) =
      match firstWord l with
      | .error e => ([], .error (.raised e))
      | .ok inc =>
        if !isFile disk inc then
          ([], .error (.exit (py "File \"" ++ inc ++ py "\" does not exist")))
        else
          match read inc with
          | (out, .error e) => (out, .error e)
          | (out, .ok icards) =>
            match readLoopD v disk read file (i + 1) ls with
            | (out', .error e) => (out ++ out', .error e)
            | (out', .ok cards) => (out ++ out', .ok (icards ++ cards)) := by
  rw [readLoopD]
  simp [startsWith]
  rfl

theorem readLoopD_plain (read : Str → List (VMsg α) × Except Stop (List PunchCard)) (file : Str)
    (i : Nat) (l : Str) (ls : List Str) (h1 : l.head? ≠ some '#') (h2 : l.head? ≠ some '$') :
    readLoopD v disk read file i (l :: ls) =
      match argusClass l DEFAULT_WIDTH DEFAULT_FIELDS (some file) (i + 1) with
      | .error e => ([], .error (.raised e))
      | .ok c =>
        match readLoopD v disk read file (i + 1) ls with
        | (out, .error e) => (out, .error e)
        | (out, .ok cards) => (out, .ok (c :: cards)) := by
  rw [readLoopD]
  have e1 : startsWith l '#' = false := by
    rw [Bool.eq_false_iff]; exact fun e => h1 (startsWith_iff.1 e)
  have e2 : startsWith l '$' = false := by
    rw [Bool.eq_false_iff]; exact fun e => h2 (startsWith_iff.1 e)
  simp [e1, e2]
  rfl

theorem readLoopD_rel {rd : Str → List (VMsg α) × Except Stop (List PunchCard)}
    {rv : Str → List (VMsg α) × Py (List PunchCard)} {rx : Str → Except (Option Str) Unit}
    (hr : ∀ f, textFiles (charsOf disk) f ≠ none → DiskRel disk v q (rd f) (rv f) (rx f))
    (hu : ∀ f s, Unreadable disk f s →
      rd f = ((if v && s == .decode then [.reading f] else []), .error s) ∨
      (q = true ∧ rd f = ([], .error (.raised .recursionError))))
    (file : Str) (i : Nat) (ls : List Str) :
    DiskRel disk v q (readLoopD v disk rd file i ls)
      (Deck.readLoopV v (textFiles (charsOf disk)) argusClass DEFAULT_WIDTH DEFAULT_FIELDS true rv file i ls)
      (Deck.readLoopExit (textFiles (charsOf disk)) argusClass DEFAULT_WIDTH DEFAULT_FIELDS rx file i
        ls) := by
  induction ls generalizing i with
  | nil => exact .ok _ _
  | cons l ls ih =>
    rcases line_cases l with ⟨t, rfl⟩ | ⟨t, rfl⟩ | ⟨h1, h2⟩
    · rw [readLoopD_comment, readLoopV_comment, readLoopExit_comment]
      exact diskRel_pre _ (ih (i + 1))
    · rw [readLoopD_include, readLoopV_include, readLoopExit_include]
      cases firstWord t with
      | error e => exact .raised _ _
      | ok inc =>
        simp only
        by_cases hn : textFiles (charsOf disk) inc = none
        · have hn' : (textFiles (charsOf disk) inc).isNone = true := by rw [hn]; rfl
          rw [if_pos hn', if_pos hn']
          rcases texts_none.1 hn with hf | ⟨s, hs⟩
          · rw [if_pos (by simp [hf])]
            exact .exit _ hf (.inr rfl)
          · rw [if_neg (by simp [unreadable_file hs])]
            rcases hu inc s hs with e | ⟨hq, e⟩
            · rw [e]
              exact .cut [] hs (.inr rfl)
            · rw [e]
              exact .deep [] hs (.inr rfl) hq
        · have hf : isFile disk inc = true := by
            cases h : isFile disk inc with
            | true => rfl
            | false => exact absurd (texts_none.2 (.inl h)) hn
          have hn' : (textFiles (charsOf disk) inc).isNone ≠ true := by
            rwa [ne_eq, Option.isNone_iff_eq_none]
          rw [if_neg hn', if_neg hn', if_neg (by simp [hf])]
          have h1 := hr inc hn
          generalize rd inc = x at h1
          generalize rv inc = y at h1
          generalize rx inc = z at h1
          cases h1 with
          | ok out b =>
            have hr := ih (i + 1)
            revert hr
            generalize readLoopD v disk rd file (i + 1) ls = x
            generalize Deck.readLoopV v (textFiles (charsOf disk)) argusClass DEFAULT_WIDTH DEFAULT_FIELDS true
              rv file (i + 1) ls = y
            generalize Deck.readLoopExit (textFiles (charsOf disk)) argusClass DEFAULT_WIDTH DEFAULT_FIELDS
              rx file (i + 1) ls = z
            intro hr
            cases hr with
            | ok out' b' => exact .ok _ _
            | raised out' e => exact .raised _ e
            | exit out' h1 h2 => exact .exit _ h1 h2
            | cut out' h1 h2 =>
              have := DiskRel.cut (disk := disk) (v := v) (q := q) (β := List PunchCard) (out ++ out') h1 h2
              rwa [List.append_assoc] at this
            | deep out' h1 h2 h => exact .deep _ h1 h2 h
            | lost x out' h =>
              rcases x with ⟨out1, r⟩
              cases r <;> exact .lost _ _ h
          | raised out e => exact .raised _ e
          | exit out h1 h2 => exact .exit _ h1 h2
          | cut out h1 h2 => exact .cut _ h1 h2
          | deep out h1 h2 h => exact .deep _ h1 h2 h
          | lost x out h => exact .lost _ _ h
    · rw [readLoopD_plain _ _ _ _ _ h1 h2, readLoopV_plain _ _ _ _ _ _ h1 h2,
        readLoopExit_plain _ _ _ _ _ h1 h2]
      cases argusClass l DEFAULT_WIDTH DEFAULT_FIELDS (some file) (i + 1) with
      | error e => exact .raised _ _
      | ok c =>
        have hr := ih (i + 1)
        revert hr
        generalize readLoopD v disk rd file (i + 1) ls = x
        generalize Deck.readLoopV v (textFiles (charsOf disk)) argusClass DEFAULT_WIDTH DEFAULT_FIELDS true
          rv file (i + 1) ls = y
        generalize Deck.readLoopExit (textFiles (charsOf disk)) argusClass DEFAULT_WIDTH DEFAULT_FIELDS
          rx file (i + 1) ls = z
        intro hr
        cases hr with
        | ok out' b' => exact .ok _ _
        | raised out' e => exact .raised _ e
        | exit out' h1 h2 => exact .exit _ h1 h2
        | cut out' h1 h2 => exact .cut _ h1 h2
        | deep out' h1 h2 h => exact .deep _ h1 h2 h
        | lost x out' h =>
          rcases x with ⟨out1, r⟩
          cases r <;> exact .lost _ _ h

theorem readSourceD_unreadable (n : Nat) {f : Str} {s : Stop} (h : Unreadable disk f s) :
    readSourceD (α := α) v disk (n + 1) f =
      ((if v && s == .decode then [.reading f] else []), .error s) := by
  rw [readSourceD, if_neg (by simp [unreadable_file h])]
  cases h with
  | denied h => rw [h]; simp
  | decode h hn =>
    rw [h]
    dsimp only
    cases hd : utf8Decode _ with
    | none => simp
    | some t => exact absurd (utf8Decode_iff.1 hd) (hn t)

theorem readSourceD_rel (m n : Nat) (hm : m ≤ n) (hq : q = true ↔ m = n) (f : Str) :
    DiskRel disk v q (readSourceD (α := α) v disk n f)
      (Deck.readSourceV v (textFiles (charsOf disk)) argusClass DEFAULT_WIDTH DEFAULT_FIELDS m true f)
      (Deck.readSourceExit (textFiles (charsOf disk)) argusClass DEFAULT_WIDTH DEFAULT_FIELDS m f) := by
  induction m generalizing n f with
  | zero =>
    cases n with
    | zero => exact .raised _ _
    | succ n => exact .lost _ _ (by cases q <;> simp_all)
  | succ m ih =>
    cases n with
    | zero => cases hm
    | succ n =>
      have hm' : m ≤ n := Nat.le_of_succ_le_succ hm
      have hq' : q = true ↔ m = n := by rw [hq]; omega
      cases ht : textFiles (charsOf disk) f with
      | none =>
        rw [Deck.readSourceV, Deck.readSourceExit, ht]
        rcases texts_none.1 ht with hf | ⟨s, hs⟩
        · rw [readSourceD, if_pos (by simp [hf])]
          exact .exit _ hf (.inl rfl)
        · rw [readSourceD_unreadable n hs]
          exact .cut [] hs (.inl rfl)
      | some text =>
        have hf : isFile disk f = true := by
          cases h : isFile disk f with
          | true => rfl
          | false => rw [texts_none.2 (.inl h)] at ht; cases ht
        rw [Deck.readSourceV, Deck.readSourceExit, ht, readSourceD, if_neg (by simp [hf])]
        have hl : ∃ bytes chars, disk f = some (.file bytes) ∧ utf8Decode bytes = some chars ∧
            universal chars = text := by
          unfold textFiles charsOf at ht
          cases h : disk f with
          | none => rw [h] at ht; cases ht
          | some nd => cases nd with
            | dir => rw [h] at ht; cases ht
            | locked => rw [h] at ht; cases ht
            | file b =>
              rw [h] at ht
              cases hd : utf8Decode b with
              | none => simp [hd] at ht
              | some cs => exact ⟨b, cs, rfl, hd, by simpa [hd] using ht⟩
        obtain ⟨bytes, chars, h1, h2, rfl⟩ := hl
        rw [h1]
        dsimp only
        rw [h2]
        exact diskRel_pre _ (readLoopD_rel (fun g _ => ih n hm' hq' g)
          (fun g s hs => by
            cases n with
            | zero => exact .inr ⟨hq'.2 (Nat.le_zero.1 hm'), rfl⟩
            | succ n => exact .inl (readSourceD_unreadable n hs)) f 0 _)

end

end H800
