import Verif.Lemmas.RealReceive
import Verif.Props.Bulletproof

/-! A concrete wallet and requests that meet the hypotheses of the theorems about the network's checks. -/

namespace Verif.Real.Demo
open Verif Ed Edwards Signer Agent Key

/-- Open parts: a hash with a fixed digest, a cipher that keeps the plain text, fixed random numbers. View key 1, spend key 2. -/
def parts : Outside where
  hash := Verif.Bp.oneH
  mac k m := k ++ m
  encPack _ m _ := m
  decPack _ m := some m
  pbSrc _ := []
  pbDst _ := []
  pbTsx _ := []
  msgOk _ := true
  respOk _ := true
  view := 1
  spend := 2
  bpRand _ := ⟨3, 4, 5, 6, fun i => i, fun i => 2 * i⟩
  mgRand _ n := ([1, 2], List.replicate n [3, 4])

theorem small_scalars {a b : ℤ} (ha : 0 ≤ a ∧ a < 5) (hb : 0 ≤ b ∧ b < 5) : Scalars [a, b] 2 := by
  have : (5 : ℤ) < l := by decide +kernel
  refine ⟨rfl, fun x hx => ?_⟩
  simp only [List.mem_cons, List.not_mem_nil, or_false] at hx
  rcases hx with rfl | rfl <;> omega

theorem two_ne : (2 : Fl) ≠ 0 := by
  have : ((2 : ℕ) : Fl) ≠ 0 := by
    rw [Ne, ZMod.natCast_eq_zero_iff]
    decide +kernel
  exact_mod_cast this

theorem ok : parts.Ok where
  hashLen _ := rfl
  hashNonzero := Verif.Bp.oneH_ne
  openSeal _ _ _ := rfl
  msgOk _ _ := rfl
  respOk _ := rfl
  view := one_ne_zero
  spend := two_ne
  bpRand _ i := ⟨by simp [parts], by simp [parts]⟩
  mgRand _ n := ⟨small_scalars (by decide) (by decide), by simp [parts], fun col hc => by
    obtain ⟨-, rfl⟩ := List.mem_replicate.1 (show col ∈ List.replicate n [3, 4] from hc)
    exact small_scalars (by decide) (by decide)⟩

/-- The wallet's address and somebody else's. -/
noncomputable def own : Addr := ⟨Bp.enc ((2 : Fl) • baseS), Bp.enc ((1 : Fl) • baseS)⟩
noncomputable def other : Addr := ⟨Bp.enc baseS, Bp.enc baseS⟩

theorem own_ne_other : other ≠ own := by
  intro h
  have h1 : baseS = (2 : Fl) • baseS := Bp.enc_injective (congrArg Addr.spend h)
  have h2 : (0 : Sub) = baseS := by
    have : (0 : Sub) + baseS = baseS + baseS := by
      rw [zero_add]; rw [two_smul] at h1; exact h1
    exact add_right_cancel this
  exact base_ne (congrArg Subtype.val h2).symm

theorem enc_base : Bp.enc baseS = encodePoint B := (encodePoint_rep rep_base).symm

theorem base_not_null : Bp.enc baseS ≠ Signer.nullKey := by
  rw [enc_base]
  decide +kernel

theorem address_own : address parts 0 0 = some own := by
  have h1 : encodePoint (scalarmultB (Bp.num (2 : Fl))) = Bp.enc ((2 : Fl) • baseS) := by
    rw [encodePoint_rep (rep_B _), Bp.enc, coe_smul']; rfl
  have h2 : encodePoint (scalarmultB (Bp.num (1 : Fl))) = Bp.enc ((1 : Fl) • baseS) := by
    rw [encodePoint_rep (rep_B _), Bp.enc, coe_smul']; rfl
  have h3 : subAddressKeys parts.hash (Bp.num parts.view) (scalarmultB (Bp.num parts.spend)) 0 0 =
      some (scalarmultB (Bp.num parts.spend), scalarmultB (Bp.num parts.view)) := by rw [subAddressKeys, if_pos ⟨rfl, rfl⟩]
  rw [address, h3, Option.map_some, own, ← h1, ← h2, show parts.view = 1 from rfl, show parts.spend = 2 from rfl]

/-- A source with a ring of two, the second of which the wallet received: transaction key `G`, output 0, amount 10, mask 7. -/
noncomputable def source : Src where
  outputs := [⟨8, Bp.enc baseS, Bp.enc baseS⟩,
    ⟨5, Bp.enc (shared (env parts) 1 baseS 0 • baseS + (2 : Fl) • baseS), Bp.enc (Signer.genC (env parts) 7 10)⟩]
  realOutput := 1
  txKey := Bp.enc baseS
  addKeys := []
  inTxIndex := 0
  amount := 10
  rct := true
  mask := (env parts).scEnc 7
  subaddrMinor := none

/-- A request that spends `n` times that source, pays 3 to somebody else and 6 to the wallet. -/
noncomputable def request (n : ℕ) : TxData where
  sources := List.replicate n source
  dsts := [⟨3, other, false⟩, ⟨6, own, false⟩]
  change := ⟨6, own, false⟩
  paymentId := []
  unlockTime := 0
  account := 0
  indices := [0]
  useBp := true

theorem owns (n : ℕ) : ∃ x ki, Owns (env parts) (tableOf (env parts) (request n)) source x ki := by
  obtain ⟨h1, h2⟩ := table_ok (o := parts) (d := request n) (by simp [request]) (by simp [request])
  obtain ⟨P, hP, hg⟩ := h2 0 (by simp [request])
  have hP' : scalarmultB (Bp.num (2 : Fl)) = P := by simpa [subSpendPub, request, parts] using hP
  refine owns_received ok.view ok.spend h1 (D := (2 : Fl) • baseS) (txKey := baseS) (addKeys := []) (n := 0) (R := baseS) ?_ (.inl rfl) (.inl rfl)
    (m := ⟨5, Bp.enc (shared (env parts) 1 baseS 0 • baseS + (2 : Fl) • baseS), Bp.enc (Signer.genC (env parts) 7 10)⟩) rfl rfl ?_ rfl rfl rfl
  · rw [Bp.enc, coe_smul', show ((baseS : Sub) : Point) = base from rfl, ← encodePoint_rep (rep_B _), hP']
    exact hg
  · show _ = Bp.enc (Signer.genC (env parts) ((env parts).scDec ((env parts).scEnc 7)) 10)
    rw [scRound_ok]

theorem spendable (n : ℕ) : Spendable parts (tableOf (env parts) (request n)) source where
  mine := owns n
  size := le_refl _
  points := by
    intro m hm
    simp only [source, List.mem_cons, List.not_mem_nil, or_false] at hm
    rcases hm with rfl | rfl <;> simp [Sig.decodable, member, Bp.decode_enc]

theorem addrs (n : ℕ) : ∀ dst ∈ (request n).dsts, (∃ p, ptDec dst.addr.spend = some p) ∧ (∃ p, ptDec dst.addr.view = some p) ∧
    dst.addr.view ≠ Signer.nullKey := by
  intro dst hd
  simp only [request, List.mem_cons, List.not_mem_nil, or_false] at hd
  rcases hd with rfl | rfl
  · exact ⟨⟨_, ptDec_enc _⟩, ⟨_, ptDec_enc _⟩, base_not_null⟩
  · refine ⟨⟨_, ptDec_enc _⟩, ⟨_, ptDec_enc _⟩, ?_⟩
    show Bp.enc ((1 : Fl) • baseS) ≠ _
    rw [one_smul]
    exact base_not_null

theorem change (n : ℕ) : ChangeOk (env parts) (request n) := by
  refine .inr ⟨⟨⟨6, own, false⟩, by simp [request], rfl⟩, ?_⟩
  show Real.primaryAddr parts 0 = own
  have h := address_own
  unfold address at h
  unfold Real.primaryAddr
  rw [Option.map_eq_some_iff] at h
  obtain ⟨k, hk, e⟩ := h
  rw [hk]
  exact e

theorem pays (n : ℕ) : PaymentIdOk (request n) :=
  .inr (.inl ⟨rfl, ⟨3, other, false⟩, by simp [request], by decide, own_ne_other⟩)

theorem is_request : Request parts ⟨10, 1⟩ (request 1) where
  version := le_refl _
  hf := by decide
  useBp := rfl
  sources := by simp [request]
  dsts := by simp [request]
  fewSources := by simp [request]
  fewDsts := by simp [request]
  enough := by simp [request, source]
  amounts := by simp [request]
  mine := by
    intro src hs
    obtain ⟨-, rfl⟩ := List.mem_replicate.1 hs
    exact spendable 1
  distinct := List.pairwise_singleton _ _
  addrs := addrs 1
  change := change 1
  paymentId := pays 1

theorem honest_twice : Honest (env parts) ⟨10, 1⟩ (request 2) where
  version := le_refl _
  hf := by decide
  useBp := rfl
  sources := by simp [request]
  dsts := by simp [request]
  fewSources := by simp [request]
  fewDsts := by simp [request]
  enough := by simp [request, source]
  amounts := by simp [request]
  mine := by
    intro src hs
    obtain ⟨-, rfl⟩ := List.mem_replicate.1 hs
    obtain ⟨x, ki, how⟩ := owns 2
    refine ⟨x, ki, how, fun msg mask r => ?_⟩
    obtain ⟨mg, e, -⟩ := mlsag_some ok how (spendable 2).size (spendable 2).points msg mask r
    rw [e]; rfl
  addrs := addrs 2
  change := change 2
  paymentId := pays 2

/-- The device's random numbers; the user confirms. -/
noncomputable def draws : Nat → Rand Fl := fun _ =>
  { confirm := true, uiOk := true, r := 2, master := 1, alpha := 3, nonceAlpha := [], nonceSpend := [], addKey := 4, bpRand := [], mlsagRand := [],
    salt := [], randMult := 0, nonceFinal := [] }

theorem agrees : Agrees draws 0 := ⟨rfl, fun _ => rfl⟩

end Verif.Real.Demo
