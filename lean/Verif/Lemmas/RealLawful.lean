import Verif.Spec.Real
import Verif.Props.Bulletproof
import Verif.Props.BpWire
import Verif.Props.Amounts

/-! The concrete parts satisfy what the host's theorems assume of the external parts. -/

namespace Verif.Real
open Verif Ed Key Sig Edwards Signer Agent

theorem toSub_rep {P : Ext} {p : Sub} (h : Rep P (p : Point)) : toSub P = some p := by
  have hex : ∃ p : Sub, Rep P (p : Point) := ⟨p, h⟩
  unfold toSub
  rw [dif_pos hex]
  exact congrArg some (Subtype.ext (rep_unique hex.choose_spec h))

theorem rep_of_toSub {P : Ext} {p : Sub} (h : toSub P = some p) : Rep P (p : Point) := by
  unfold toSub at h
  split at h
  · rename_i hex
    exact Option.some.inj h ▸ hex.choose_spec
  · simp at h

theorem ptDec_enc (p : Sub) : ptDec (Bp.enc p) = some p := by
  rw [ptDec, Bp.decode_enc, Option.bind_some, toSub_rep (Bp.rep_sub_canon p)]

theorem ptDec_some {b : Bytes} {p : Sub} (h : ptDec b = some p) : ∃ P, decodePoint b = some P ∧ Rep P (p : Point) := by
  rw [ptDec, Option.bind_eq_some_iff] at h
  obtain ⟨P, h1, h2⟩ := h
  exact ⟨P, h1, rep_of_toSub h2⟩

theorem env_ptDec (o : Outside) : (env o).ptDec = ptDec := rfl
theorem env_ptEnc (o : Outside) : (env o).ptEnc = Bp.enc := rfl

theorem rdInts_append : ∀ (os : List Int) (r : Bytes), (∀ o ∈ os, 0 ≤ o) →
    Wire.rdInts os.length ((os.map fun o => Varint.dumpNat o.toNat).flatten ++ r) = some (os, r)
  | [], _, _ => rfl
  | x :: xs, r, h => by
    have hx : ((x.toNat : ℕ) : ℤ) = x := Int.toNat_of_nonneg (h x (by simp))
    simp only [List.map_cons, List.flatten_cons, List.length_cons, List.append_assoc, Wire.rdInts, Varint.load_dumpNat,
      Option.bind_eq_bind, Option.bind_some, rdInts_append xs r (fun o ho => h o (by simp [ho])), hx]

theorem parse_vin (v : Vin) (hk : v.ki.length = 32) (ho : ∀ o ∈ v.offsets, 0 ≤ o) :
    Wire.parseVin ([2] ++ Wire.serTxin v.amount v.ki v.offsets) = some v := by
  have h := Bp.rdKey_append v.ki [] hk
  rw [List.append_nil] at h
  simp only [Wire.serTxin, List.cons_append, List.nil_append, List.append_assoc, Wire.parseVin, Varint.load_dumpNat, Option.bind_eq_bind,
    Option.bind_some, rdInts_append v.offsets v.ki ho, h]

theorem parse_vout (k : Bytes) (hk : k.length = 32) : Wire.parseVout ([0, 2] ++ k) = some ⟨0, k⟩ := by
  have h := Bp.rdKey_append k [] hk
  rw [List.append_nil] at h
  have hl : Varint.load (0 :: 2 :: k) = some (0, 2 :: k) := by
    have := Varint.load_dumpNat 0 (2 :: k)
    have e : Varint.dumpNat 0 = [0] := by decide +kernel
    rwa [e] at this
  simp only [List.cons_append, List.nil_append, Wire.parseVout, hl, Option.bind_eq_bind, Option.bind_some, h, Option.map_some]

theorem num_list (l' : List Fl) : (l'.map Bp.num).length = l'.length := List.length_map _

theorem ecdh_ok {o : Outside} (ho : o.Ok) (m : Fl) (a : ℕ) (k : Bytes) (v2 : Bool) (ha : a < 2 ^ 64) :
    ∃ e, (env o).ecdh m a k v2 = some e ∧ e.length = if v2 then 8 else 64 := by
  have hx : ¬ ((a : ℤ) ≥ 2 ^ 64) := by push Not; exact_mod_cast ha
  cases v2
  · refine ⟨_, by show (Key.ecdhEncode _ _ _ _ _).map _ = _; rw [ecdhEncode, if_neg hx, if_neg (by simp)]; rfl, ?_⟩
    simp [ecdhSerialize, encodeInt_length]
  · refine ⟨_, by show (Key.ecdhEncode _ _ _ _ _).map _ = _; rw [ecdhEncode, if_neg hx, if_pos rfl]; rfl, ?_⟩
    simp [ecdhSerialize, xor8, encodeInt_length, ecdhHash, ho.hashLen]

theorem bpVerify_iff (o : Outside) (p : Verif.Bp) (amounts : List ℕ) (masks : List Fl) :
    (env o).bpVerify p amounts masks = true ↔ ∀ wy wz, Bp.verifyBp o.hash (withV [] p) amounts (masks.map Bp.num) wy wz = some () := by
  classical
  unfold env
  exact decide_eq_true_iff

theorem bp_ok {o : Outside} (ho : o.Ok) (l' : List (ℕ × Fl)) (r : Bytes) (hne : l' ≠ []) (h16 : l'.length ≤ 16) (hb : ∀ x ∈ l', x.1 < 2 ^ 64) :
    ∃ proof bytes, (env o).bpProve (l'.map (·.1)) (l'.map (·.2)) r = some proof ∧
      (env o).bpVerify proof (l'.map (·.1)) (l'.map (·.2)) = true ∧ (env o).bpDump proof = some bytes ∧ (env o).bpParse bytes = some proof ∧
      bytes ≠ [] := by
  have hL : ∀ i, 0 ≤ (o.bpRand r).sL i := fun i => (ho.bpRand r i).1
  have hR : ∀ i, 0 ≤ (o.bpRand r).sR i := fun i => (ho.bpRand r i).2
  have hlen : (l'.map (·.1)).length = ((l'.map (·.2)).map Bp.num).length := by simp
  have h32 : (l'.map (·.1)).length ≤ 32 := by rw [List.length_map]; omega
  obtain ⟨π, hπ, -⟩ := Bp.C44_produces o.hash ho.hashNonzero (o.bpRand r) hL hR (l'.map (·.1)) ((l'.map (·.2)).map Bp.num)
    (by simpa using hne) (by simpa using hb) hlen h32
  obtain ⟨b, hb1, hb2, hb3⟩ := Bp.C48_produced o.hash (o.bpRand r) hL hR _ _ hlen h32 hπ []
  refine ⟨strip π, b, ?_, ?_, hb1, ?_, ?_⟩
  · show (Bp.proveRangeBp _ _ _ _).map strip = _
    rw [hπ, Option.map_some]
  · rw [bpVerify_iff]
    intro wy wz
    exact Bp.C44_verify_bp o.hash (o.bpRand r) hL hR _ _ hlen h32 hπ (Bp.nonzero_of o.hash ho.hashNonzero π) wy wz []
  · show (Bp.parseRsigBp b).map _ = _
    rw [List.append_nil] at hb3
    rw [hb3]; rfl
  · rintro rfl
    simp only [List.length_nil, List.length_map, Bp.bpSize] at hb2
    omega

theorem scRound_ok (o : Outside) (s : Fl) : (env o).scDec ((env o).scEnc s) = s := by
  show (((decodeScalar (encodeInt (Bp.num s))).getD 0 : ℤ) : Fl) = s
  rw [C35_scalar_roundtrip _ (Bp.num_range s).1 (Bp.num_range s).2]
  exact Bp.cast_num s

theorem scLen_ok (o : Outside) (s : Fl) : (env o).scEnc s ≠ [] := by
  intro h
  have := encodeInt_length (Bp.num s)
  rw [show encodeInt (Bp.num s) = [] from h] at this
  simp at this

theorem vin_ok (o : Outside) (v : Vin) (hk : v.ki.length = 32) (ho : ∀ o ∈ v.offsets, 0 ≤ o) : Wire.parseVin (dumpVin (env o) v) = some v :=
  parse_vin v hk ho

theorem lawful {o : Outside} (ho : o.Ok) : Lawful (env o) Wire.codec := by
  constructor
  case msgOk => exact ho.msgOk
  case respOk => exact ho.respOk
  case keyLen => exact fun b => ho.hashLen (o.hash b)
  case hashLen => intro b; have := ho.hashLen b; exact this
  case ptLen => intro p; have := Bp.enc_length p; exact this
  case ptRound => intro p; rw [env_ptDec, env_ptEnc, ptDec_enc]
  case scRound => exact scRound_ok o
  case scLen => exact scLen_ok o
  case openSeal => intro k m n; have := ho.openSeal k m n; exact this
  case vin => exact vin_ok o
  case vout => exact parse_vout
  case ecdh => exact ecdh_ok ho
  case bp => exact bp_ok ho

end Verif.Real
