import Verif.Model.Sig

/-!
Options of the range prover: ring_ct.py 202-252 `prove_range`, with the C implementation of monero_glue/xmr/core/ec_trezor.py 876-895.
-/

namespace Verif.Sig
open Verif Ed

/-- The three forms in which a range signature is returned: scalars and points, encoded scalars and points, or one string. -/
inductive Form
  | decoded (r : RangeSig)
  | encoded (r : RangeBytes)
  | bytes (b : Bytes)

/-- ec_trezor.py 876-895 `prove_range`: the C function's arrays in one string. -/
def backendRange (gen : Nat → Option Int → Option (Ext × Int × RangeBytes)) (amount : Nat) (last : Option Int) : Option (Ext × Int × Bytes) :=
  (gen amount last).map fun x => (x.1, x.2.1, x.2.2.s0.flatten ++ x.2.2.s1.flatten ++ x.2.2.ee ++ x.2.2.Ci.flatten)

/-- recode_ext.py 52-72 `inflate_rsig` of whatever is given: only a string can be cut (an object without items raises TypeError). -/
def inflateForm : Form → Option Form
  | .bytes b => some (.encoded (inflateRsig b))
  | .encoded _ => none
  | .decoded _ => none

/-- recode_ext.py 6-31 `recode_rangesig(R, encode=False)`. -/
def decodeForm : Form → Option Form
  | .encoded r => (decodeRangeSig r).map Form.decoded
  | .bytes _ => none
  | .decoded _ => none

/-- ring_ct.py 202-252 `prove_range`; `gen` is the C function of the backend if it has one (`has_rangeproof_borromean`), `rnd` the random scalars of the
Python provers. The argument `rsig` is not used by the code. -/
def proveRange (gen : Option (Nat → Option Int → Option (Ext × Int × RangeBytes))) (H : Bytes → Bytes) (amount : Nat) (last : Option Int)
    (memOpt backendImpl decode byteEnc : Bool) (rnd : List BitRnd) : Option (Ext × Int × Form) :=
  match (if backendImpl then gen else none) with
  | some g =>
    if byteEnc && decode then none
    else
      (backendRange g amount last).bind fun x =>
      (if !byteEnc then inflateForm (.bytes x.2.2) else some (.bytes x.2.2)).bind fun R =>
      (if decode then (inflateForm R).bind decodeForm else some R).map fun R => (x.1, x.2.1, R)
  | none =>
    (if !memOpt then proveRangeOrig H amount last rnd else proveRangeMem H amount last rnd).map fun x =>
      (x.1, x.2.1, if byteEnc then .bytes (flattenRsig (encodeRangeSig x.2.2)) else if !decode then .encoded (encodeRangeSig x.2.2) else .decoded x.2.2)

end Verif.Sig
