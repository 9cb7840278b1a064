import Verif.Model.BitField

/-!
The cases of `h800/bitfield_test.py`, with its loops unrolled, as checks that the model agrees with
what the project's own tests expect of the code. These are tests, not proofs; no property rests on
them.
-/

namespace H800.Tests

/-- A statement of a test: an operation on the field, or an expected result. -/
inductive Step where
  | assign (k : Key) (x : Int)
  | set (i : Option Int)
  | clear (i : Option Int)
  | value (x : Int)
  | maxval (x : Int)
  | width (n : Nat)
  | item (k : Key) (x : Int)
  | isBitSet (i : Int) (r : Bool)
  | isBitClr (i : Int) (r : Bool)
  | isRange (i j x : Int) (r : Bool)
  | isRangeSet (i j : Int) (r : Bool)
  | isRangeClr (i j : Int) (r : Bool)

/-- The expectation holds / the operation succeeds. -/
def Step.ok (b : BitField) : Step → Bool
  | .assign k x => (b.setitem k x).2 = .ok ()
  | .set i => (b.set i).2 = .ok ()
  | .clear i => (b.clear i).2 = .ok ()
  | .value x => b.value = x
  | .maxval x => b.maxval = x
  | .width n => b.width = n
  | .item k x => b.getitem k = .ok x
  | .isBitSet i r => b.isBitSet i = .ok r
  | .isBitClr i r => b.isBitClr i = .ok r
  | .isRange i j x r => b.isRange (some i) (some j) x = .ok r
  | .isRangeSet i j r => b.isRangeSet (some i) (some j) = .ok r
  | .isRangeClr i j r => b.isRangeClr (some i) (some j) = .ok r

/-- The field afterwards. -/
def Step.run (b : BitField) : Step → BitField
  | .assign k x => (b.setitem k x).1
  | .set i => (b.set i).1
  | .clear i => (b.clear i).1
  | _ => b

/-- All steps succeed. -/
def passes (b : BitField) : List Step → Bool
  | [] => true
  | s :: l => s.ok b && passes (s.run b) l

/-- `test_simple` -/
example : (BitField.init 0 8 0 1).toOption.any (passes ·
  [.value 0, .maxval 255, .width 8, .width 8]) := by decide +kernel

/-- `test_msb_left_8bit` -/
example : (BitField.init 8 8 0 0).toOption.any (passes ·
  [.value 8, .maxval 255, .width 8, .width 8, .assign (.slice (some 7) (some 3)) 5, .value 40,
   .item (.idx 3) 1, .isBitSet 3 true, .item (.idx 5) 1, .isBitSet 5 true, .assign (.idx 7) 1,
   .item (.idx 7) 1, .isBitSet 7 true, .value 168, .assign (.slice (some 7) (some 0)) 255,
   .value 255, .isBitSet 7 true, .isBitClr 7 false, .isBitSet 6 true, .isBitClr 6 false,
   .isBitSet 5 true, .isBitClr 5 false, .isBitSet 4 true, .isBitClr 4 false, .isBitSet 3 true,
   .isBitClr 3 false, .isBitSet 2 true, .isBitClr 2 false, .isBitSet 1 true, .isBitClr 1 false,
   .isBitSet 0 true, .isBitClr 0 false, .value 255, .isRange 7 0 1 true, .isRangeSet 7 0 true,
   .isRangeClr 7 0 false]) := by decide +kernel

/-- `test_msb_left_15bit` -/
example : (BitField.init 15 8 0 0).toOption.any (passes ·
  [.value 15, .maxval 255, .width 8, .item (.idx 7) 0, .isBitSet 7 false, .isBitClr 7 true,
   .item (.idx 6) 0, .isBitSet 6 false, .isBitClr 6 true, .item (.idx 5) 0, .isBitSet 5 false,
   .isBitClr 5 true, .item (.idx 4) 0, .isBitSet 4 false, .isBitClr 4 true, .item (.idx 3) 1,
   .isBitSet 3 true, .isBitClr 3 false, .item (.idx 2) 1, .isBitSet 2 true, .isBitClr 2 false,
   .item (.idx 1) 1, .isBitSet 1 true, .isBitClr 1 false, .item (.idx 0) 1, .isBitSet 0 true,
   .isBitClr 0 false]) := by decide +kernel

/-- `test_msb_right_8bit` -/
example : (BitField.init 8 8 0 1).toOption.any (passes ·
  [.value 8, .maxval 255, .width 8, .assign (.slice (some 3) (some 7)) 5, .value 40,
   .item (.idx 3) 1, .isBitSet 3 true, .isBitClr 3 false, .item (.idx 5) 1, .isBitSet 5 true,
   .isBitClr 5 false, .assign (.idx 7) 1, .item (.idx 7) 1, .isBitSet 7 true, .isBitClr 7 false,
   .value 168, .assign (.slice (some 0) (some 7)) 255, .isBitSet 0 true, .isBitClr 0 false,
   .isBitSet 1 true, .isBitClr 1 false, .isBitSet 2 true, .isBitClr 2 false, .isBitSet 3 true,
   .isBitClr 3 false, .isBitSet 4 true, .isBitClr 4 false, .isBitSet 5 true, .isBitClr 5 false,
   .isBitSet 6 true, .isBitClr 6 false, .isBitSet 7 true, .isBitClr 7 false, .value 255]) := by decide +kernel

/-- `test_msb_left_msb1_48bit` -/
example : (BitField.init 0 48 3 0).toOption.any (passes ·
  [.value 0, .maxval 281474976710655, .width 48, .width 48,
   .assign (.slice (some 33) (some 48)) 65535, .value 65535,
   .assign (.slice (some 1) (some 48)) 0, .value 0,
   .assign (.slice (some 1) (some 48)) 281474976710655, .value 281474976710655,
   .assign (.slice (some 1) (some 48)) 0, .value 0, .set none, .value 281474976710655,
   .clear none, .value 0, .assign (.slice (some 1) (some 12)) 2730, .value 187604171489280,
   .clear none, .value 0, .assign (.slice (some 13) (some 24)) 2730, .value 45801799680,
   .clear none, .value 0, .assign (.slice (some 25) (some 36)) 2730, .value 11182080,
   .clear none, .value 0, .assign (.slice (some 37) (some 48)) 2730, .value 2730, .clear none,
   .value 0]) := by decide +kernel

/-- `test_msb_left_msb1_12bit` -/
example : (BitField.init 0 12 3 0).toOption.any (passes ·
  [.value 0, .maxval 4095, .width 12, .width 12, .assign (.slice (some 9) (some 12)) 15,
   .value 15, .assign (.slice (some 1) (some 12)) 0, .value 0,
   .assign (.slice (some 1) (some 12)) 4095, .value 4095, .assign (.slice (some 1) (some 12)) 0,
   .value 0, .set none, .value 4095, .clear none, .value 0,
   .assign (.slice (some 1) (some 6)) 42, .value 2688, .clear none, .value 0,
   .assign (.slice (some 7) (some 12)) 42, .value 42, .clear none, .value 0, .set (some 1),
   .value 2048, .clear (some 1), .value 0, .set (some 2), .value 1024, .clear (some 2),
   .value 0, .set (some 3), .value 512, .clear (some 3), .value 0, .set (some 4), .value 256,
   .clear (some 4), .value 0, .set (some 5), .value 128, .clear (some 5), .value 0,
   .set (some 6), .value 64, .clear (some 6), .value 0, .set (some 7), .value 32,
   .clear (some 7), .value 0, .set (some 8), .value 16, .clear (some 8), .value 0,
   .set (some 9), .value 8, .clear (some 9), .value 0, .set (some 10), .value 4,
   .clear (some 10), .value 0, .set (some 11), .value 2, .clear (some 11), .value 0,
   .set (some 12), .value 1, .clear (some 12), .value 0, .set (some 12), .value 1,
   .clear (some 12), .value 0, .set (some 11), .value 2, .clear (some 11), .value 0,
   .set (some 10), .value 4, .clear (some 10), .value 0, .set (some 9), .value 8,
   .clear (some 9), .value 0, .set (some 8), .value 16, .clear (some 8), .value 0,
   .set (some 7), .value 32, .clear (some 7), .value 0, .set (some 6), .value 64,
   .clear (some 6), .value 0, .set (some 5), .value 128, .clear (some 5), .value 0,
   .set (some 4), .value 256, .clear (some 4), .value 0, .set (some 3), .value 512,
   .clear (some 3), .value 0, .set (some 2), .value 1024, .clear (some 2), .value 0,
   .set (some 1), .value 2048, .clear (some 1), .value 0, .set (some 1), .value 2048,
   .set (some 2), .value 3072, .set (some 3), .value 3584, .set (some 4), .value 3840,
   .set (some 5), .value 3968, .set (some 6), .value 4032, .set (some 7), .value 4064,
   .set (some 8), .value 4080, .set (some 9), .value 4088, .set (some 10), .value 4092,
   .set (some 11), .value 4094, .set (some 12), .value 4095, .clear none, .value 0,
   .set (some 12), .value 1, .set (some 11), .value 3, .set (some 10), .value 7, .set (some 9),
   .value 15, .set (some 8), .value 31, .set (some 7), .value 63, .set (some 6), .value 127,
   .set (some 5), .value 255, .set (some 4), .value 511, .set (some 3), .value 1023,
   .set (some 2), .value 2047, .set (some 1), .value 4095, .clear none, .value 0]) := by decide +kernel

/-- `test_misc_12bit` -/
example : (BitField.init 0 12 3 0).toOption.any (passes ·
  [.value 0, .assign (.idx 1) 1, .value 2048, .assign (.idx 7) 1, .value 2080,
   .assign (.slice (some 1) (some 6)) 0, .value 32, .assign (.slice (some 8) (some 12)) 5,
   .value 37]) := by decide +kernel

/-- `test_invalid_args` -/
example : BitField.init 256 65 0 1 = .error .valueError ∧ BitField.init 256 8 0 1 = .error .valueError := by
  decide +kernel

end H800.Tests
