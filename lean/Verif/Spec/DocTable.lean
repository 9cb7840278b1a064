import Verif.Spec.Form

/-!
The table of bit patterns in the comment of `h800/instructions.py` (16-95), one row per line: the
mnemonic, the form ("masked", "unmasked", "direct", "indexed", or nothing) and the twelve positions
of the command code. According to the key (3-8), `s` is the sequence bit, `a`, `b`, `c` the memory
designators, `m` the mask, `p` the peripheral address, and `x` is not significant.
-/

namespace H800.Spec

/-- A row of the documented table. -/
structure DocRow where
  m : Str
  form : Str
  pat : Str
  deriving DecidableEq, Repr

/-- instructions.py 16-95 -/
def docTable : List DocRow :=
  [⟨py "BA", py "masked", py "smmmmm101001"⟩,
   ⟨py "BA", py "unmasked", py "s10abc001001"⟩,
   ⟨py "DA", py "masked", py "smmmmm100001"⟩,
   ⟨py "DA", py "unmasked", py "s10abc000001"⟩,
   ⟨py "WA", py "masked", py "smmmmm101101"⟩,
   ⟨py "WA", py "unmasked", py "s10abc001101"⟩,
   ⟨py "BS", py "masked", py "smmmmm111001"⟩,
   ⟨py "BS", py "unmasked", py "s10abc011001"⟩,
   ⟨py "DS", py "masked", py "smmmmm110001"⟩,
   ⟨py "DS", py "unmasked", py "s10abc010001"⟩,
   ⟨py "WD", py "masked", py "smmmmm111101"⟩,
   ⟨py "WD", py "unmasked", py "s10abc011101"⟩,
   ⟨py "NA", py "masked", py "smmmmm101100"⟩,
   ⟨py "NA", py "unmasked", py "s10abc001100"⟩,
   ⟨py "NN", py "masked", py "smmmmm101000"⟩,
   ⟨py "NN", py "unmasked", py "s10abc001000"⟩,
   ⟨py "LA", py "masked", py "smmmmm111100"⟩,
   ⟨py "LA", py "unmasked", py "s10abc011100"⟩,
   ⟨py "LN", py "masked", py "smmmmm111000"⟩,
   ⟨py "LN", py "unmasked", py "s10abc011000"⟩,
   ⟨py "TX", py "masked", py "smmmmm110000"⟩,
   ⟨py "TX", py "unmasked", py "s10abc010000"⟩,
   ⟨py "TS", py "masked", py "smmmmm100100"⟩,
   ⟨py "TS", py "unmasked", py "s10abc000100"⟩,
   ⟨py "HA", py "masked", py "smmmmm110101"⟩,
   ⟨py "HA", py "unmasked", py "s10abc010101"⟩,
   ⟨py "SM", py "masked", py "smmmmm100101"⟩,
   ⟨py "SM", py "unmasked", py "s10abc000101"⟩,
   ⟨py "CP", py "masked", py "smmmmm110100"⟩,
   ⟨py "CP", py "unmasked", py "s10abc010100"⟩,
   ⟨py "BM", [], py "s00abc001011"⟩,
   ⟨py "DM", [], py "s00abc000011"⟩,
   ⟨py "BT", [], py "s10abc001011"⟩,
   ⟨py "DT", [], py "s10abc000011"⟩,
   ⟨py "MT", [], py "s00abc010000"⟩,
   ⟨py "TN", [], py "s01abc010000"⟩,
   ⟨py "CC", [], py "s01abc001000"⟩,
   ⟨py "IT", [], py "s01abc011000"⟩,
   ⟨py "EBA", [], py "s11abc001011"⟩,
   ⟨py "EBS", [], py "s11abc011011"⟩,
   ⟨py "RT", [], py "s11abc011000"⟩,
   ⟨py "MPC", [], py "s10abc000000"⟩,
   ⟨py "PR", [], py "x000xx000000"⟩,
   ⟨py "SWS", [], py "s10abc000110"⟩,
   ⟨py "SPS", [], py "s10abc000010"⟩,
   ⟨py "SWE", [], py "s10abc001110"⟩,
   ⟨py "SPE", [], py "s10abc001010"⟩,
   ⟨py "SSL", [], py "s10abc010110"⟩,
   ⟨py "SS", [], py "s00abc000110"⟩,
   ⟨py "EX", [], py "s00abc001110"⟩,
   ⟨py "RF", [], py "pppppp111010"⟩,
   ⟨py "RB", [], py "pppppp101010"⟩,
   ⟨py "WF", [], py "pppppp101110"⟩,
   ⟨py "RW", [], py "pppppp100010"⟩,
   ⟨py "PRA", [], py "sxxabc100110"⟩,
   ⟨py "PRD", [], py "sxxabc100110"⟩,
   ⟨py "PRO", [], py "sxxabc100110"⟩,
   ⟨py "S", py "direct", py "0xxxxxxxx111"⟩,
   ⟨py "S", py "indexed", py "1xxxxxxxx111"⟩,
   ⟨py "FBA", [], py "s01abc000001"⟩,
   ⟨py "FDA", [], py "s01abc010001"⟩,
   ⟨py "FBS", [], py "s01abc001001"⟩,
   ⟨py "FDS", [], py "s01abc011001"⟩,
   ⟨py "FBD", [], py "s01abc000101"⟩,
   ⟨py "FDD", [], py "s01abc010101"⟩,
   ⟨py "FBAU", [], py "s11abc000001"⟩,
   ⟨py "FDAU", [], py "s11abc010001"⟩,
   ⟨py "FBSU", [], py "s11abc001001"⟩,
   ⟨py "FDSU", [], py "s11abc011001"⟩,
   ⟨py "FBM", [], py "s11abc000101"⟩,
   ⟨py "FDM", [], py "s11abc010101"⟩,
   ⟨py "ULD", [], py "s11abc001101"⟩,
   ⟨py "FBAE", [], py "s00abc000001"⟩,
   ⟨py "FBSE", [], py "s00abc001001"⟩,
   ⟨py "BD", [], py "s00abc000101"⟩,
   ⟨py "DD", [], py "s00abc010101"⟩,
   ⟨py "FFN", [], py "s00abc001101"⟩,
   ⟨py "FCON", [], py "s00abc011101"⟩,
   ⟨py "FLN", [], py "s00abc011000"⟩,
   ⟨py "FNN", [], py "s10abc001100"⟩]

/-- The twelve binary digits of a command code, bit 1 (the most significant) first. -/
def digits12 (code : Int) : List Int := (List.range 12).map fun i => code / 2 ^ (11 - i) % 2

/-- The fixed positions of a pattern agree with the code. -/
def FixedAgree (pat : Str) (code : Int) : Prop :=
  ∀ q ∈ List.zip pat (digits12 code), (q.1 = '0' → q.2 = 0) ∧ (q.1 = '1' → q.2 = 1)

instance (pat : Str) (code : Int) : Decidable (FixedAgree pat code) := by
  unfold FixedAgree; infer_instance

/-- The number whose binary digits stand, most significant first, where the pattern has the
letter. -/
def fieldAt (letter : Char) (pat : Str) (code : Int) : Int :=
  (List.zip pat (digits12 code)).foldl (fun n q => if q.1 = letter then 2 * n + q.2 else n) 0

/-- The code is an instance of a documented pattern with the operands of a form. -/
def Form.Instance (pat : Str) (code : Int) : Form → Prop
  | .masked s m => FixedAgree pat code ∧ fieldAt 's' pat code = s ∧ fieldAt 'm' pat code = m
  | .unmasked s a b c => FixedAgree pat code ∧ fieldAt 's' pat code = s ∧
      fieldAt 'a' pat code = a ∧ fieldAt 'b' pat code = b ∧ fieldAt 'c' pat code = c
  | .peripheral p => FixedAgree pat code ∧ fieldAt 'p' pat code = p
  | .print s a b c => FixedAgree pat code ∧ fieldAt 's' pat code = s ∧
      fieldAt 'a' pat code = a ∧ fieldAt 'b' pat code = b ∧ fieldAt 'c' pat code = c
  | .simulator _ => FixedAgree pat code

/-- Which of the rows of a mnemonic describes a form. -/
def Form.Row (form : Str) : Form → Prop
  | .masked _ _ => form = py "masked"
  | .unmasked _ _ _ _ => form = py "unmasked" ∨ form = []
  | .peripheral _ => form = []
  | .print _ _ _ _ => form = []
  | .simulator s => (s = 0 ∧ form = py "direct") ∨ (s = 1 ∧ form = py "indexed")

end H800.Spec
