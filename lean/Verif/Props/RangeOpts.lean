import Verif.Model.RangeOpts
import Verif.Props.Range

/-!
C120: a range proof is the same proof in whichever form it is asked for.
-/

namespace Verif.Sig
open Verif Ed Key

/-- The range signature that a verifier gets from each form. -/
def Form.read : Form → Option RangeSig
  | .decoded r => some r
  | .encoded r => decodeRangeSig r
  | .bytes b => decodeRangeSig (inflateRsig b)

/-- The form that the options ask for. -/
def Form.fits (decode byteEnc : Bool) : Form → Prop
  | .decoded _ => decode = true ∧ byteEnc = false
  | .encoded _ => decode = false ∧ byteEnc = false
  | .bytes _ => byteEnc = true

theorem made {H : Bytes → Bytes} {amount : ℕ} (ha : amount < 2 ^ 64) (last : Option ℤ) {rnd : List BitRnd} (hn : rnd.length = 64)
    (hr : ∀ r ∈ rnd, Reduced r.s0 ∧ Reduced r.s1) :
    ∃ C a r r', proveRangeOrig H amount last rnd = some (C, a, r) ∧ verRange H (some C) r = some true ∧ checkPoint C = true ∧
      pointEqual C (genC a amount) = true ∧ (∀ m, last = some m → a = m % l) ∧ inflateRsig (flattenRsig (encodeRangeSig r)) = encodeRangeSig r ∧
      decodeRangeSig (encodeRangeSig r) = some r' ∧ verRange H (some C) r' = some true := by
  obtain ⟨C, a, r, g1, g2, g3, g4, -, g5⟩ := C41_range H amount ha last rnd hn
  obtain ⟨C', a', s, s', h1, h2, h3⟩ := C41_wire H amount ha last rnd hn hr
  rw [g1, Option.some.injEq, Prod.mk.injEq, Prod.mk.injEq] at h1
  obtain ⟨rfl, rfl, rfl⟩ := h1
  have hi : inflateRsig (flattenRsig (encodeRangeSig r)) = encodeRangeSig r := by
    obtain ⟨bb, hd, hb, hv, hb1⟩ := d2bLoop_some 64 amount ha
    obtain ⟨e1, -, -⟩ := orig_facts H amount last rnd hn bb hb hb1 hv
    have hrs : r = ⟨genBorromean H (bitIns (masks last (rnd.map (·.ai)) 0).1 bb (hPow 64 hPt) rnd),
        (bitIns (masks last (rnd.map (·.ai)) 0).1 bb (hPow 64 hPt) rnd).map (·.P1)⟩ := by
      unfold proveRangeOrig d2b at g1
      rw [hd] at g1
      dsimp only at g1
      exact (congrArg (fun x => x.2.2) (Option.some.inj g1)).symm
    generalize bitIns (masks last (rnd.map (·.ai)) 0).1 bb (hPow 64 hPt) rnd = ins at *
    apply C41_flatten_roundtrip
    · rw [hrs]; simp [encodeRangeSig, genBorromean, e1]
    · rw [hrs]; simp [encodeRangeSig, genBorromean, e1]
    · rw [hrs]; simp [encodeRangeSig, e1]
    · intro x hx
      simp only [encodeRangeSig, List.mem_append, List.mem_map, List.mem_singleton] at hx
      rcases hx with ((⟨y, -, rfl⟩ | ⟨y, -, rfl⟩) | rfl) | ⟨y, -, rfl⟩
      · rw [encodeInt, packBits_length]
      · rw [encodeInt, packBits_length]
      · rw [encodeInt, packBits_length]
      · rw [encodePoint, packBits_length]
  rw [hi] at h2
  exact ⟨C, a, r, s', g1, g2, g3, g4, g5, hi, h2, h3⟩

/-- C120: with the Python provers, for every amount below 2^64 and every combination of options, the result has the form asked for (a string when both
forms are), what a verifier reads from it is accepted for the commitment, which commits to the amount under the returned mask (the mask given, if one was);
and commitment, mask and encoded proof do not depend on the options. -/
theorem C120_forms (H : Bytes → Bytes) {amount : ℕ} (ha : amount < 2 ^ 64) (last : Option ℤ) {rnd : List BitRnd} (hn : rnd.length = 64)
    (hr : ∀ r ∈ rnd, Reduced r.s0 ∧ Reduced r.s1) :
    ∃ (C : Ext) (a : ℤ) (e : RangeBytes), pointEqual C (genC a amount) = true ∧ (∀ m, last = some m → a = m % l) ∧
      ∀ gen (memOpt backendImpl decode byteEnc : Bool), (backendImpl = true → gen = none) →
        ∃ f r, proveRange gen H amount last memOpt backendImpl decode byteEnc rnd = some (C, a, f) ∧ f.fits decode byteEnc ∧ f.read = some r ∧
          verRange H (some C) r = some true ∧
          (match f with | .decoded r => encodeRangeSig r = e | .encoded b => b = e | .bytes b => b = flattenRsig e ∧ inflateRsig b = e) := by
  obtain ⟨C, a, r, r', h1, h2, -, h4, h5, h6, h7, h8⟩ := made ha last hn hr
  refine ⟨C, a, encodeRangeSig r, h4, h5, fun gen memOpt backendImpl decode byteEnc hb => ?_⟩
  have hg : (if backendImpl then gen else none) = none := by
    cases backendImpl
    · rfl
    · exact hb rfl
  have hp : (if !memOpt then proveRangeOrig H amount last rnd else proveRangeMem H amount last rnd) = some (C, a, r) := by
    rw [C41_mem_same H amount last rnd hn, h1, ite_self]
  unfold proveRange
  rw [hg, hp]
  cases byteEnc
  · cases decode
    · exact ⟨.encoded (encodeRangeSig r), r', rfl, ⟨rfl, rfl⟩, h7, h8, rfl⟩
    · exact ⟨.decoded r, r, rfl, ⟨rfl, rfl⟩, rfl, h2, rfl⟩
  · refine ⟨.bytes (flattenRsig (encodeRangeSig r)), r', rfl, rfl, ?_, h8, rfl, h6⟩
    rw [Form.read, h6, h7]

/-- C120: amounts that do not fit are refused with all options. -/
theorem C120_too_large (gen) (H : Bytes → Bytes) {amount : ℕ} (ha : 2 ^ 64 ≤ amount) (last : Option ℤ) (rnd : List BitRnd)
    (memOpt backendImpl decode byteEnc : Bool) (hb : backendImpl = true → gen = none) :
    proveRange gen H amount last memOpt backendImpl decode byteEnc rnd = none := by
  have hg : (if backendImpl then gen else none) = none := by
    cases backendImpl
    · rfl
    · exact hb rfl
  obtain ⟨h1, h2⟩ := C41_too_large H amount ha last rnd
  unfold proveRange
  rw [hg, h1, h2, ite_self]
  rfl

/-- C120, part: a proof of the C implementation, with 64 pieces of 32 bytes each, is passed on unchanged, in one string or in pieces as asked for. Missing:
the decoded form. -/
theorem C120_backend_partial (g : ℕ → Option ℤ → Option (Ext × ℤ × RangeBytes)) (H : Bytes → Bytes) {amount : ℕ} {last : Option ℤ} {C : Ext} {a : ℤ}
    {e : RangeBytes} (hg : g amount last = some (C, a, e)) (h0 : e.s0.length = 64) (h1 : e.s1.length = 64) (hC : e.Ci.length = 64)
    (hl : ∀ x ∈ e.s0 ++ e.s1 ++ [e.ee] ++ e.Ci, x.length = 32) (memOpt byteEnc : Bool) (rnd : List BitRnd) :
    ∃ f, proveRange (some g) H amount last memOpt true false byteEnc rnd = some (C, a, f) ∧ f.fits false byteEnc ∧ f.read = decodeRangeSig e := by
  have hi := C41_flatten_roundtrip e h0 h1 hC hl
  have hb : backendRange g amount last = some (C, a, flattenRsig e) := by
    rw [backendRange, hg]
    rfl
  unfold proveRange
  rw [if_pos rfl]
  dsimp only
  rw [hb, Option.bind_some]
  cases byteEnc
  · refine ⟨.encoded e, ?_, ⟨rfl, rfl⟩, rfl⟩
    simp only [inflateForm, hi]
    rfl
  · exact ⟨.bytes (flattenRsig e), rfl, rfl, by rw [Form.read, hi]⟩

/-- C120 is false of the C implementation: the decoded form always raises, because the proof is cut up twice. -/
theorem C120_false_decode (g : ℕ → Option ℤ → Option (Ext × ℤ × RangeBytes)) (H : Bytes → Bytes) (amount : ℕ) (last : Option ℤ) (memOpt byteEnc : Bool)
    (rnd : List BitRnd) : proveRange (some g) H amount last memOpt true true byteEnc rnd = none := by
  unfold proveRange
  rw [if_pos rfl]
  dsimp only
  cases byteEnc
  · cases backendRange g amount last <;> rfl
  · rfl

/-! A C function that returns zeros is passed on; the decoded form of the same proof raises. -/

/-- Arrays of zeros. -/
def zeroRange : ℕ → Option ℤ → Option (Ext × ℤ × RangeBytes) := fun _ _ =>
  some (ident, 0, ⟨List.replicate 64 (List.replicate 32 0), List.replicate 64 (List.replicate 32 0), List.replicate 32 0, List.replicate 64 (List.replicate 32 0)⟩)

example : (match proveRange (some zeroRange) (fun _ => []) 5 none true true false false [] with
    | some (_, a, .encoded e) => some (a, e.s0.length, e.Ci.length)
    | _ => none) = some (0, 64, 64) ∧ (proveRange (some zeroRange) (fun _ => []) 5 none true true true false []).isNone := by decide +kernel

/-- The hypotheses of `C120_forms` with 64 times the same random scalars. -/
example : let rnd := List.replicate 64 (⟨1, 2, 3, 4⟩ : BitRnd)
    rnd.length = 64 ∧ ∀ r ∈ rnd, Reduced r.s0 ∧ Reduced r.s1 := by
  refine ⟨by decide, fun r hr => ?_⟩
  rw [List.eq_of_mem_replicate hr]
  unfold Reduced
  decide +kernel

end Verif.Sig
