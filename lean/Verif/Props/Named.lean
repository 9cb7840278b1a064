import Verif.Lemmas.Named
import Verif.Props.NamedTools

/-!
Property C188: the symbol table of a file of any name, also one whose segment is named like a kind of
definition.
-/

namespace H800

open Spec

open Classical in
/-- C188: if no line with EQUALS is taken, the table is built. The lines taken are reported and counted
as multiply defined, in order, besides the lines in error; every definition that is not taken replaces
the one before it under the same keys, and the taken ones change nothing. -/
theorem C188_built (upper : Str → Str) (fs : FileSystem) (file : Str) (t : Symtab) (seg : Str)
    (hf : file ≠ []) (hseg : BeforeFirst '.' file seg) (out : List Src) (hout : Expands fs file out)
    (hne : ∀ i, ¬ TakenEquals upper t seg out i) :
    ∃ n b, (∀ m, n ≤ m → buildSymbolTable upper fs m file t = .ok b) ∧
      b.errcount = (out.filter fun s => decide (InError upper s)).length +
        ((List.range out.length).filter fun i => decide (Taken upper t seg out i)).length ∧
      List.Forall₂ (fun i d => ∃ s tag tt sub kind, DefinesAt upper out i s tag tt sub kind ∧
          d.label = tag ∧ d.file = some s.file ∧ d.line = (s.num : Int))
        ((List.range out.length).filter fun i => decide (Taken upper t seg out i))
        (b.diags.filter fun d => decide (d.err = .multiple)) ∧
      (∀ i s tag tt sub kind, DefinesAt upper out i s tag tt sub kind → ¬ Taken upper t seg out i →
        (∀ j s' tt', i < j → DefinesAt upper out j s' tag tt' sub kind → Taken upper t seg out j) →
        ∃ e, Recorded b.symtab tag seg sub kind e ∧ Describes s tt e) ∧
      (∀ tag sub kind, (∀ i s tt, DefinesAt upper out i s tag tt sub kind → Taken upper t seg out i) →
        ∀ e, Recorded b.symtab tag seg sub kind e ↔ Recorded t tag seg sub kind e) := by
  obtain ⟨n, hn⟩ := build_complete (upper := upper) (t := t) hf hout
  obtain rfl := beforeFirst_unique hseg
  obtain ⟨b, h1, h2⟩ := build_upto upper t (splitFirst file '.') out out.length (Nat.le_refl _)
    fun j _ => hne j
  rw [List.take_length] at h1
  have herr := h2.errs
  rw [List.take_length] at herr
  have hlt : ∀ {i s tag tt sub kind}, DefinesAt upper out i s tag tt sub kind → i < out.length :=
    fun h => (List.getElem?_eq_some_iff.1 h.1).1
  refine ⟨n, b, fun m hm => (hn m hm).trans h1, herr, h2.diags, ?_, ?_⟩
  · intro i s tag tt sub kind hd ht hl
    exact ⟨_, (recorded_iff _ _ _ _ _ _).2
      (h2.last i s tag tt sub kind (hlt hd) hd ht fun k s' tt' hk _ => hl k s' tt' hk),
      entry_describes s tt⟩
  · intro tag sub kind hl e
    rw [recorded_iff, recorded_iff, h2.old tag sub kind fun k s' tt' _ => hl k s' tt']

/-- C188: the first line with EQUALS that is taken stops everything: with a KeyError, or an
AttributeError if the tag is known in a subsegment named "card" of the segment "simple". -/
theorem C188_crash (upper : Str → Str) (fs : FileSystem) (file : Str) (t : Symtab) (seg : Str)
    (hf : file ≠ []) (hseg : BeforeFirst '.' file seg) (out : List Src) (hout : Expands fs file out)
    (i : Nat) (hi : TakenEquals upper t seg out i)
    (hfirst : ∀ j, j < i → ¬ TakenEquals upper t seg out j) :
    ∃ n e, (∀ m, n ≤ m → buildSymbolTable upper fs m file t = .error e) ∧
      ((∃ s tag tt sub kind, DefinesAt upper out i s tag tt sub kind ∧
          KnownSub upper t seg out i tag (py "simple") (py "card") ∧ e = .attributeError) ∨
        (∃ s tag tt sub kind, DefinesAt upper out i s tag tt sub kind ∧
          ¬ KnownSub upper t seg out i tag (py "simple") (py "card") ∧ e = .keyError)) := by
  obtain ⟨n, hn⟩ := build_complete (upper := upper) (t := t) hf hout
  obtain rfl := beforeFirst_unique hseg
  obtain ⟨s, tag, tt, sub, kind, hd, -⟩ := hi.1
  have hs := hd.1
  have hlt : i < out.length := (List.getElem?_eq_some_iff.1 hs).1
  obtain ⟨st, h1, h2⟩ := build_upto upper t (splitFirst file '.') out i (by omega) hfirst
  obtain ⟨-, o, ha, -⟩ := (definesAt_iff _ _ _ _ _ _ _ _).1 hd
  have h3 := (upto_def h2 hs ha).2 hi
  have hb : ∀ e, buildStep upper (splitFirst file '.') st (srcCard s) = .error e →
      buildCards upper (splitFirst file '.') ⟨t, py "1", 0, []⟩ (out.map srcCard) = .error e := by
    intro e he
    have hsplit : out = out.take i ++ s :: out.drop (i + 1) := by
      have : out[i] = s := Option.some.inj ((List.getElem?_eq_getElem hlt).symm.trans hs)
      rw [← this, ← List.drop_eq_getElem_cons hlt, List.take_append_drop]
    rw [hsplit, List.map_append, List.map_cons]
    unfold buildCards at h1 ⊢
    rw [List.foldlM_append, h1]
    show (buildStep upper (splitFirst file '.') st (srcCard s) >>= _) = _
    rw [he]
    rfl
  by_cases hc : KnownSub upper t (splitFirst file '.') out i tag (py "simple") (py "card")
  · rw [if_pos hc] at h3
    exact ⟨n, _, fun m hm => (hn m hm).trans (hb _ h3), Or.inl ⟨s, tag, tt, sub, kind, hd, hc, rfl⟩⟩
  · rw [if_neg hc] at h3
    exact ⟨n, _, fun m hm => (hn m hm).trans (hb _ h3), Or.inr ⟨s, tag, tt, sub, kind, hd, hc, rfl⟩⟩

/-- C188: no line is taken if neither the file nor a file before it has a segment named like a kind. -/
theorem C188_plain (upper : Str → Str) (t : Symtab) (seg : Str) (hp : PlainSeg seg)
    (ht : PlainTable t) (out : List Src) (i : Nat) : ¬ Taken upper t seg out i := by
  rintro ⟨s, tag, tt, sub, kind, hd, -, hk⟩
  obtain ⟨-, -, -, ⟨o, -, rfl⟩, -⟩ := hd
  have hkind : ¬ PlainSeg (kindOf o) := by
    rw [kindOf_eq]
    rcases symtypeOf_cases o with h | h
    · rw [h]; exact fun hp => hp.1 rfl
    · rw [h]; exact fun hp => hp.2 rfl
  rcases hk with ⟨segs, subs, h1, h2⟩ | ⟨h, -⟩
  · exact hkind (ht tag segs h1 _ _ h2)
  · rw [h] at hkind; exact hkind hp

/-- C188, an example: the third line of `simple.arg` is taken and has EQUALS. It is the first such line,
so that building the table is a KeyError. -/
example : TakenEquals asciiUpper [] (py "simple") simpleLines 2 ∧
    (∀ j, j < 2 → ¬ TakenEquals asciiUpper [] (py "simple") simpleLines j) ∧
    (match buildSymbolTable asciiUpper simpleFs 5 (py "simple.arg") [] with
      | .error e => some e
      | .ok _ => none) = some .keyError := by
  obtain ⟨h0, h1, h2, ho⟩ := simple_defs
  refine ⟨⟨⟨_, _, _, _, _, h2, Or.inr ⟨rfl, 0, _, _, _, by decide, h0⟩,
    Or.inr ⟨rfl, 0, _, _, _, _, by decide, h0⟩⟩, _, rfl, ho⟩, ?_, rfl⟩
  rintro j hj ⟨⟨s, tag, tt, sub, kind, hd, hk, -⟩, -⟩
  rcases hk with ⟨_, _, _, h, -⟩ | ⟨-, j', s', tt', kind', hj', hd'⟩
  · cases h
  · obtain rfl : j' = 0 := by omega
    obtain rfl : j = 1 := by omega
    rw [definesAt_iff] at hd hd' h0 h1
    obtain ⟨hs, o, ha, -⟩ := hd
    obtain ⟨hs', o', ha', -⟩ := hd'
    obtain ⟨ht, p, hb, -⟩ := h1
    obtain ⟨ht', p', hb', -⟩ := h0
    rw [ht] at hs; cases hs
    rw [ht'] at hs'; cases hs'
    rw [hb] at ha; cases ha
    rw [hb'] at ha'; cases ha'

/-- C188, an example: the second line of `complex.arg` is taken, although no line before it has its
kind. The table is built with one error, reported as multiple definition. -/
example : Taken asciiUpper [] (py "complex") complexLines 1 ∧
    (match buildSymbolTable asciiUpper simpleFs 5 (py "complex.arg") [] with
      | .error _ => none
      | .ok b => some (b.errcount, b.diags.map fun d => (d.err, d.label, d.line))) =
        some (1, [(.multiple, py "A", 2)]) := by
  obtain ⟨h0, h1, -⟩ := complex_defs
  exact ⟨⟨_, _, _, _, _, h1, Or.inr ⟨rfl, 0, _, _, _, by decide, h0⟩,
    Or.inr ⟨rfl, 0, _, _, _, _, by decide, h0⟩⟩, by decide +kernel⟩

end H800
