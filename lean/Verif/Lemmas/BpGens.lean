import Verif.Lemmas.BpTables
import Verif.Lemmas.BpAlgebra
import Verif.Lemmas.SigRings
import Verif.Model.Bulletproof
import Verif.Props.Curve

/-! Encoded points of the subgroup of order `l` and the operations on them; the generators of Bulletproofs. -/

namespace Verif.Bp
open Verif Ed Key Sig Edwards

/-- The encoding of a point of the subgroup of order `l`. -/
def enc (p : Sub) : Bytes := encPt (p : Point)

theorem enc_injective : Function.Injective enc := fun _ _ h => Subtype.ext (encPt_injective h)

/-- The point `H` of the commitments, as a member of the subgroup. -/
noncomputable def hS : Sub := ⟨hBase, l_hBase⟩

theorem coe_smul (s : ℤ) (p : Sub) : (((s : Fl) • p : Sub) : Point) = s • (p : Point) := by
  rw [Int.cast_smul_eq_zsmul]; rfl

theorem rep_sub_canon (p : Sub) : Rep (canon (p : Point)) (p : Point) := rep_canon _

theorem decode_enc (p : Sub) : decodePoint (enc p) = some (canon (p : Point)) := decode_encPt _

theorem encode_rep {P : Ext} {p : Sub} (h : Rep P (p : Point)) : encodePoint P = enc p := encodePoint_rep h

theorem rep_smulS {P : Ext} {p : Sub} (h : Rep P (p : Point)) {s : ℤ} (hs : 0 ≤ s) : Rep (smul P s) (((s : Fl) • p : Sub) : Point) := by
  rw [coe_smul]; exact rep_smul h hs

theorem scalarmultKey_enc (p : Sub) {s : ℤ} (hs : 0 ≤ s) : scalarmultKey (enc p) s = some (enc ((s : Fl) • p)) := by
  rw [scalarmultKey, decode_enc, Option.map_some, encode_rep (rep_smulS (rep_sub_canon p) hs)]

theorem scalarmultH_enc (x : ℤ) : scalarmultH x = enc ((x : Fl) • hS) := by
  have := encode_rep (rep_smulS (p := hS) rep_hBase (emod_l_range x).1)
  rwa [cast_mod_l] at this

theorem rep_BS (x : ℤ) : Rep (scalarmultB x) (((x : Fl) • baseS : Sub) : Point) := by
  rw [coe_smul]; exact rep_B x

theorem scalarmultBase_enc (x : ℤ) : scalarmultBase x = enc ((x : Fl) • baseS) := encode_rep (rep_BS x)

theorem addKeys_enc (p r : Sub) : addKeys (enc p) (enc r) = some (enc (p + r)) := by
  rw [addKeys, decode_enc, decode_enc]
  exact congrArg some (encode_rep (p := p + r) (rep_add (rep_sub_canon p) (rep_sub_canon r)))

theorem subKeys_enc (p r : Sub) : subKeys (enc p) (enc r) = some (enc (p - r)) := by
  rw [subKeys, decode_enc, decode_enc]
  exact congrArg some (encode_rep (p := p - r) (rep_sub (rep_sub_canon p) (rep_sub_canon r)))

theorem xmrH_enc : xmrH = enc hS := by
  have h : encodePoint hPt = xmrH := by rw [hPt_val]; decide +kernel
  rw [← h]; exact encode_rep rep_hBase

theorem rep_addKeys2S {P : Ext} {p : Sub} (h : Rep P (p : Point)) (a : ℤ) {b : ℤ} (hb : 0 ≤ b) :
    Rep (Key.addKeys2 a b P) (((a : Fl) • baseS + (b : Fl) • p : Sub) : Point) := by
  rw [AddSubgroup.coe_add, coe_smul, coe_smul]; exact rep_addKeys2 h a hb

theorem rep_addKeys3S {P Q : Ext} {p r : Sub} (hP : Rep P (p : Point)) (hQ : Rep Q (r : Point)) {a b : ℤ} (ha : 0 ≤ a) (hb : 0 ≤ b) :
    Rep (addKeys3 a P b Q) (((a : Fl) • p + (b : Fl) • r : Sub) : Point) := by
  rw [AddSubgroup.coe_add, coe_smul, coe_smul]; exact rep_addKeys3 hP hQ ha hb

theorem addKeys2_enc (a : ℤ) {b : ℤ} (hb : 0 ≤ b) (p : Sub) : addKeys2 a b (enc p) = some (enc ((a : Fl) • baseS + (b : Fl) • p)) := by
  rw [addKeys2, decode_enc, Option.map_some, encode_rep (rep_addKeys2S (rep_sub_canon p) a hb)]

theorem foldKey_enc {a b : ℤ} (ha : 0 ≤ a) (hb : 0 ≤ b) (p r : Sub) :
    foldKey a b (enc p) (enc r) = some (enc ((a : Fl) • p + (b : Fl) • r)) := by
  rw [foldKey, decode_enc, decode_enc]
  exact congrArg some (encode_rep (rep_addKeys3S (rep_sub_canon p) (rep_sub_canon r) ha hb))

theorem one_enc : one = enc 0 := by
  have h : encodePoint ident = one := by decide +kernel
  rw [← h]; exact encode_rep (p := 0) rep_ident

/-! ## Scalars -/

@[simp] theorem cast_scMul (a b : ℤ) : ((scMul a b : ℤ) : Fl) = a * b := by rw [scMul, cast_mod_l, Int.cast_mul]
@[simp] theorem cast_scMuladd (a b c : ℤ) : ((scMuladd a b c : ℤ) : Fl) = c + a * b := by rw [scMuladd, cast_mod_l]; push_cast; rfl
@[simp] theorem cast_scMulsub (a b c : ℤ) : ((scMulsub a b c : ℤ) : Fl) = c - a * b := by rw [scMulsub, cast_mod_l]; push_cast; rfl
@[simp] theorem cast_scAdd (a b : ℤ) : ((scAdd a b : ℤ) : Fl) = a + b := by rw [scAdd, cast_mod_l]; push_cast; rfl
@[simp] theorem cast_scSub (a b : ℤ) : ((scSub a b : ℤ) : Fl) = a - b := by rw [scSub, cast_mod_l]; push_cast; rfl

@[simp] theorem cast_scInv (a : ℤ) : ((scInv a : ℤ) : Fl) = (a : Fl)⁻¹ := by
  obtain ⟨_, h1, h2⟩ := C50_scalar_inv a
  by_cases h : a % l = 0
  · rw [h2 h, (mod_l_eq_zero a).mp h]; simp
  · have := congrArg (fun x : ℤ => (x : Fl)) (h1 h)
    simp only [cast_mod_l, Int.cast_mul, Int.cast_one] at this
    exact eq_inv_of_mul_eq_one_left this

theorem scMul_nn (a b : ℤ) : 0 ≤ scMul a b := (emod_l_range _).1
theorem scMuladd_nn (a b c : ℤ) : 0 ≤ scMuladd a b c := (emod_l_range _).1
theorem scMulsub_nn (a b c : ℤ) : 0 ≤ scMulsub a b c := (emod_l_range _).1
theorem scAdd_nn (a b : ℤ) : 0 ≤ scAdd a b := (emod_l_range _).1
theorem scSub_nn (a b : ℤ) : 0 ≤ scSub a b := (emod_l_range _).1
theorem scInv_nn (a : ℤ) : 0 ≤ scInv a := (C50_scalar_inv a).1.1

theorem eq_l {a b : ℤ} (ha : 0 ≤ a ∧ a < l) (hb : 0 ≤ b ∧ b < l) (h : (a : Fl) = (b : Fl)) : a = b := by
  have : a % l = b % l := by rw [l_eq]; exact (ZMod.intCast_eq_intCast_iff _ _ _).mp h
  rwa [Int.emod_eq_of_lt ha.1 ha.2, Int.emod_eq_of_lt hb.1 hb.2] at this

theorem cast_ne_zero {a : ℤ} (ha : 0 ≤ a ∧ a < l) : (a : Fl) ≠ 0 ↔ a ≠ 0 := by
  rw [Ne, ← mod_l_eq_zero, Int.emod_eq_of_lt ha.1 ha.2]

theorem inv8_eq : inv8 = 2713877091499598330239944961141122840321418634767465352250731601857045344121 := by decide +kernel

theorem cast_inv8 : (8 : Fl) * (inv8 : Fl) = 1 := by
  have h : (inv8 * 8) % l = 1 := by rw [inv8_eq]; decide +kernel
  have := congrArg (fun x : ℤ => (x : Fl)) h
  simp only [cast_mod_l, Int.cast_mul, Int.cast_one] at this
  rw [mul_comm]; exact_mod_cast this

theorem inv8_nn : 0 ≤ inv8 := by rw [inv8_eq]; norm_num

/-! ## Generators -/

theorem getExponent_sub (H : Bytes → Bytes) (i : ℕ) : ∃ p : Sub, getExponent H i = enc p := by
  unfold getExponent
  generalize H _ = d
  obtain ⟨p, hp, h0⟩ := rep_hp H d
  exact ⟨⟨p, h0⟩, encode_rep (p := ⟨p, h0⟩) hp⟩

/-- A table entry is the eighth multiple of the witness. -/
def wit (n : ℕ) (w : ℕ × ℕ × ℕ) : Bool :=
  decide ((n / 2 ^ 255 : ℕ) = w.1 % 2 ∧ n < 2 ^ 256 ∧ (w.1 : ℤ) < q ∧ ((n % 2 ^ 255 : ℕ) : ℤ) < q) &&
  isOnCurve ⟨w.2.1, w.2.2, 1, w.2.1 * w.2.2⟩ && isOnCurve ⟨w.1, (n % 2 ^ 255 : ℕ), 1, w.1 * (n % 2 ^ 255 : ℕ)⟩ &&
  pointEqual (mul8 ⟨w.2.1, w.2.2, 1, w.2.1 * w.2.2⟩) ⟨w.1, (n % 2 ^ 255 : ℕ), 1, w.1 * (n % 2 ^ 255 : ℕ)⟩

def witAll : List ℕ → List (ℕ × ℕ × ℕ) → Bool
  | [], _ => true
  | n :: ns, w :: ws => wit n w && witAll ns ws
  | _ :: _, [] => false

theorem gi_wit : witAll giPre giWit = true := by decide +kernel
theorem hi_wit : witAll hiPre hiWit = true := by decide +kernel

theorem packBits_congr {f g : ℕ → ℕ} (h : ∀ i < 256, f i = g i) : packBits f = packBits g := by
  unfold packBits
  refine List.map_congr_left fun i hi => ?_
  have hi := List.mem_range.mp hi
  congr 2
  refine List.map_congr_left fun j hj => ?_
  have hj := List.mem_range.mp hj
  rw [h _ (by omega)]

theorem wit_enc {n : ℕ} {w : ℕ × ℕ × ℕ} (h : wit n w = true) : ∃ p : Sub, encodeInt (n : ℤ) = enc p := by
  obtain ⟨x, qx, qy⟩ := w
  simp only [wit, Bool.and_eq_true, decide_eq_true_eq] at h
  obtain ⟨⟨⟨⟨hs, hn, hx, hy⟩, h1⟩, h2⟩, h3⟩ := h
  obtain ⟨Q, rQ⟩ := (isOnCurve_iff _).mp h1
  obtain ⟨P, rP⟩ := (isOnCurve_iff _).mp h2
  have e : (8 : ℤ) • Q = P := (pointEqual_iff (rep_mul8 rQ) rP).mp h3
  have lP : lN • P = 0 := by
    rw [← e]
    have := l_eight Q
    rwa [← natCast_zsmul Q 8] at this
  refine ⟨⟨P, lP⟩, ?_⟩
  have ex := rP.x
  have ey := rP.y
  simp only [Int.cast_one, mul_one] at ex ey
  have vx : val P.x = x := by rw [← ex, val_cast, Int.emod_eq_of_lt (by omega) hx]
  have vy : val P.y = ((n % 2 ^ 255 : ℕ) : ℤ) := by rw [← ey, val_cast, Int.emod_eq_of_lt (by omega) hy]
  rw [enc, encPt, encodeInt]
  refine packBits_congr fun i hi => ?_
  rw [vx, vy]
  have key (m i : ℕ) : intBit (m : ℤ) i = m / 2 ^ i % 2 := by
    unfold intBit
    have : ((m : ℤ) / 2 ^ i % 2) = ((m / 2 ^ i % 2 : ℕ) : ℤ) := by push_cast; rfl
    rw [this]; exact Int.toNat_natCast _
  split
  · rename_i h
    rw [key, key]
    have e : 2 ^ 255 = 2 ^ i * 2 ^ (255 - i) := by rw [← pow_add]; congr 1; omega
    have hd : 2 ∣ 2 ^ (255 - i) := dvd_pow_self 2 (by omega)
    rw [e, Nat.mod_mul_right_div_self, Nat.mod_mod_of_dvd _ hd]
  · have : i = 255 := by omega
    subst this
    rw [key, hs]
    omega

theorem witAll_enc : ∀ {ns : List ℕ} {ws : List (ℕ × ℕ × ℕ)}, witAll ns ws = true → ∀ n ∈ ns, ∃ p : Sub, encodeInt (n : ℤ) = enc p
  | [], _, _, n, hn => by simp at hn
  | m :: ns, w :: ws, h, n, hn => by
    rw [witAll, Bool.and_eq_true] at h
    rcases List.mem_cons.mp hn with rfl | hn
    · exact wit_enc h.1
    · exact witAll_enc h.2 n hn
  | _ :: _, [], h, _, _ => by simp [witAll] at h

theorem gGen_sub (H : Bytes → Bytes) (i : ℕ) : ∃ p : Sub, gGen H i = enc p := by
  unfold gGen
  split
  · rename_i n hn
    exact witAll_enc gi_wit n (List.mem_of_getElem? hn)
  · exact getExponent_sub H _

theorem hGen_sub (H : Bytes → Bytes) (i : ℕ) : ∃ p : Sub, hGen H i = enc p := by
  unfold hGen
  split
  · rename_i n hn
    exact witAll_enc hi_wit n (List.mem_of_getElem? hn)
  · exact getExponent_sub H _

/-- The generators as points of the subgroup. -/
noncomputable def gPt (H : Bytes → Bytes) (i : ℕ) : Sub := Classical.choose (gGen_sub H i)
noncomputable def hGPt (H : Bytes → Bytes) (i : ℕ) : Sub := Classical.choose (hGen_sub H i)
theorem gGen_enc (H : Bytes → Bytes) (i : ℕ) : gGen H i = enc (gPt H i) := Classical.choose_spec (gGen_sub H i)
theorem hGen_enc (H : Bytes → Bytes) (i : ℕ) : hGen H i = enc (hGPt H i) := Classical.choose_spec (hGen_sub H i)

end Verif.Bp
