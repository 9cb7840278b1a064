import Verif.Spec.CallLine
import Verif.Props.Calls
import Verif.Lemmas.Display

/-!
Property C178, the text of the line that is printed when an instruction is made.
-/

namespace H800

open Spec

theorem display_showOpt (printable : Char → Bool) (v : Option Int) :
    Display printable (intVal v) (showOpt v) := by
  cases v with
  | none => exact .none
  | some n => exact .int (pyStr_shortest n)

theorem opcode_record (printable : Char → Bool) (o : Opcode) :
    RecordText printable (py "Opcode") (opcodeFields o) (o.text printable) := by
  refine ⟨[reprStr printable o.m, reprStr printable o.c, showOpt o.b23, showOpt o.b7, pyStr o.op,
    reprStr printable o.type], ?_, ?_⟩
  · exact .cons (.str (reprStr_text _ _)) (.cons (.str (reprStr_text _ _))
      (.cons (display_showOpt _ _) (.cons (display_showOpt _ _) (.cons (.int (pyStr_shortest _))
        (.cons (.str (reprStr_text _ _)) .nil)))))
  · simp [opcodeFields, Opcode.text, List.intercalate]

theorem record_inj {printable : Char → Bool} {cls : Str} {fields : List (Str × Val)} {t t' : Str}
    (h : RecordText printable cls fields t) (h' : RecordText printable cls fields t') : t = t' := by
  obtain ⟨ts, h, rfl⟩ := h
  obtain ⟨ts', h', rfl⟩ := h'
  rw [forall₂_inj (R := Display printable) (fun _ _ _ g g' => display_inj g _ g') h h']

/-- C178: the line that the constructor prints is the opcode and the operands behind their names, as
Python writes these values. -/
theorem C178_text (printable : Char → Bool) (o : Opcode) (s k a b c d : Option Int) (l : Str) :
    Instruction.line printable o s k a b c d = l ↔ CallLine printable o s k a b c d l := by
  have e : Instruction.line printable o s k a b c d =
      (py "opcode:" ++ o.text printable) ++ (py " sequence:" ++ showOpt s) ++
        (py " mask:" ++ showOpt k) ++ (py " a=" ++ showOpt a) ++ (py " b=" ++ showOpt b) ++
        (py " c=" ++ showOpt c) ++ (py " paddr=" ++ showOpt d) := by
    simp only [Instruction.line, List.append_assoc]
  have g := fun v => display_showOpt printable v
  rw [e]
  constructor
  · rintro rfl
    exact ⟨_, opcode_record printable o, _, _, _, _, _, _, g s, g k, g a, g b, g c, g d, rfl⟩
  · rintro ⟨r, hr, s', k', a', b', c', d', hs, hk, ha, hb, hc, hd, rfl⟩
    rw [record_inj hr (opcode_record printable o), display_inj hs _ (g s), display_inj hk _ (g k),
      display_inj ha _ (g a), display_inj hb _ (g b), display_inj hc _ (g c), display_inj hd _ (g d)]

/-- A concrete case of C178. -/
example : CallLine (fun _ => true) ⟨py "RW", py "Re\"w'", none, some 1, 2, py "p"⟩ none none none none
    none (some (-64))
    (py "opcode:Opcode(m='RW', c='Re\"w\\'', b23=None, b7=1, op=2, type='p') sequence:None mask:None a=None b=None c=None paddr=-64") :=
  (C178_text _ _ _ _ _ _ _ _ _).1 (by decide +kernel)

end H800
