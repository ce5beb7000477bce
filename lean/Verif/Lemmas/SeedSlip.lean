import Verif.Lemmas.HdMore
import Verif.Props.KeysStandard
import Verif.Model.Seed

/-! Nodes of the wallet with `use_ed25519` represent the nodes of SLIP-0010. -/

namespace Verif.Hd
open Verif HdSpec
open Verif.Mnemonic (hexlify parseHex hexlify_length)

/-- The wallet node is the node of SLIP-0010. -/
structure ReprEd (w : Wallet) (x : Bytes × Bytes) : Prop where
  ed : w.useEd = true
  priv : ∃ k, w.privateKey = some k ∧ k.getKey = hexlify x.1
  pub : ∃ b, w.publicKey.getKey true = hexlify b
  chain : w.chainCode = hexlify x.2
  klen : x.1.length = 32
  clen : x.2.length = 32

theorem decodeScalar_number {b : Bytes} (h : b.length = 32) : Ed.decodeScalar b = some (Key.number b % Ed.l : ℤ) := by
  rw [Ed.decodeScalar, Ed.decodeInt, if_neg (by omega), Key.bitSum_256 h]
  rfl

theorem base_zero (k : ℤ) : k • Ed.base = 0 ↔ k % Ed.l = 0 := by
  have : Ed.l = (Ed.lN : ℤ) := by rfl
  rw [this, ← Int.dvd_iff_emod_eq_zero, ← Ed.order_base, addOrderOf_dvd_iff_zsmul_eq_zero]

theorem fromMaster_slip (hm : Bytes → Bytes → Bytes) (hl : ∀ k m, (hm k m).length = 64) (seed : Bytes) (net : Network) :
    ((num (slipMaster hm seed).1 = 0 ∨ Secp.n ≤ num (slipMaster hm seed).1) → fromMasterSecret hm seed net true = none) ∧
    (1 ≤ num (slipMaster hm seed).1 → num (slipMaster hm seed).1 < Secp.n →
      ∃ w, fromMasterSecret hm seed net true = some w ∧ ReprEd w (slipMaster hm seed)) := by
  have hs : ascii "ed25519 seed" = [0x65, 0x64, 0x32, 0x35, 0x35, 0x31, 0x39, 0x20, 0x73, 0x65, 0x65, 0x64] := by decide +kernel
  simp only [slipMaster, fromMasterSecret, hs, if_true, toLong_eq]
  have hIL := hl [0x65, 0x64, 0x32, 0x35, 0x35, 0x31, 0x39, 0x20, 0x73, 0x65, 0x65, 0x64] seed
  generalize hm [0x65, 0x64, 0x32, 0x35, 0x35, 0x31, 0x39, 0x20, 0x73, 0x65, 0x65, 0x64] seed = I at *
  have hd : (I.drop 32).length = 32 := by simp [hIL]
  have ht : (I.take 32).length = 32 := by simp [hIL]
  generalize I.drop 32 = R at *
  generalize I.take 32 = L at *
  constructor
  · intro h
    have : initKeys (some (num L)) none none none net true = none := by
      rcases h with h | h
      · simp [initKeys, Option.filter, h]
      · have h0 : num L ≠ 0 := by
          have : 0 < Secp.n := by decide +kernel
          omega
        have h1 : ¬ (1 ≤ num L ∧ num L < Secp.n) := by omega
        simp [initKeys, Option.filter, h0, mkPrivate, h1]
    rw [initWallet, this]
  · intro h1 h2
    obtain ⟨x, y, hP, hR⟩ := getPublic h1 h2 net false
    rw [initWallet, initKeys_exp h1 h2 hP true]
    refine ⟨_, rfl, rfl, ⟨_, rfl, ?_⟩, ⟨_, pubKey_hex hR _ _⟩, ?_, ht, hd⟩
    · rw [privKey_hex h2]
      have := be_num L
      rw [ht] at this
      rw [this]
    · exact longToHex_num' R 32 64 hd rfl

theorem getChild_slip (hm : Bytes → Bytes → Bytes) (hl : ∀ k m, (hm k m).length = 64) (h160 : Bytes → Bytes) (hh : ∀ m, (h160 m).length = 20)
    {w : Wallet} {x : Bytes × Bytes} (hr : ReprEd w x) (m : ℕ) (hm31 : m < 2 ^ 31) :
    ((Key.number (slipChild hm x m).1 : ℤ) % Ed.l = 0 → w.getChild hm h160 m (some true) true = none) ∧
    ((Key.number (slipChild hm x m).1 : ℤ) % Ed.l ≠ 0 → ∃ v, w.getChild hm h160 m (some true) true = some v ∧ ReprEd v (slipChild hm x m)) := by
  obtain ⟨k, hk, hkey⟩ := hr.priv
  obtain ⟨b, hb⟩ := hr.pub
  have hidx : Bip.childIndex w.privateKey.isSome w.useEd m (some true) = some (m + 2 ^ 31, true) := by
    rw [hk, hr.ed]
    have h3 : ¬ ((m : ℤ) < 0 ∨ (m : ℤ) ≥ (0x80000000 : ℕ)) := by push_neg; constructor <;> omega
    simp only [Bip.childIndex, Int.natAbs_natCast]
    rw [if_neg (by omega), if_neg h3]
    simp
    omega
  have hihex : longToHex (m + 2 ^ 31) 8 = hexlify (be 4 (m + 2 ^ 31)) := longToHex_be 4 _ (by norm_num; omega)
  have hdata : unhexlify (([0, 0] ++ (w.privateKey.map PrivateKey.getKey).getD []) ++ longToHex (m + 2 ^ 31) 8) =
      some (0 :: (x.1 ++ be 4 (m + 2 ^ 31))) := by
    rw [hk, hihex, Option.map_some, Option.getD_some, hkey]
    have : ([0, 0] ++ hexlify x.1) ++ hexlify (be 4 (m + 2 ^ 31)) = hexlify (0 :: (x.1 ++ be 4 (m + 2 ^ 31))) := by
      generalize be 4 (m + 2 ^ 31) = B
      rw [show (0 :: (x.1 ++ B)) = [0] ++ (x.1 ++ B) from rfl, hexlify_append, hexlify_append]
      rfl
    rw [this, unhexlify_hexlify]
  have hchain : unhexlify w.chainCode = some x.2 := by rw [hr.chain, unhexlify_hexlify]
  have hfp : w.fingerprint h160 = some (hexlify ((h160 b).take 4)) := by
    rw [Wallet.fingerprint, hb, unhexlify_hexlify, Option.map_some, ← hexlify_take]
  simp only [slipChild]
  have hIL := hl x.2 (0 :: (x.1 ++ be 4 (m + 2 ^ 31)))
  unfold Wallet.getChild
  rw [hidx]
  simp only [if_true, hdata, hchain, hr.ed, Bool.not_true, Bool.false_and, Bool.false_eq_true, if_false]
  generalize hm x.2 (0 :: (x.1 ++ be 4 (m + 2 ^ 31))) = I at *
  have hd : (I.drop 32).length = 32 := by simp [hIL]
  have ht : (I.take 32).length = 32 := by simp [hIL]
  generalize I.drop 32 = R at *
  generalize I.take 32 = L at *
  have hpub : (PrivateKey.ed L).getPublicKey = some (.ed (Ed.scalarmultB (Key.number L % Ed.l : ℤ))) := by
    rw [PrivateKey.getPublicKey, decodeScalar_number ht]; rfl
  have hrep := Key.rep_B (Key.number L % Ed.l : ℤ)
  have hck : childKeys w L = if Ed.pointEqual (Ed.scalarmultB (Key.number L % Ed.l : ℤ)) Ed.ident = true then none else
      some (.ed L, .ed (Ed.scalarmultB (Key.number L % Ed.l : ℤ))) := by
    rw [childKeys, if_pos hr.ed, hk, Option.isNone_some, hpub]
    rfl
  constructor
  · intro h0
    have : Ed.pointEqual (Ed.scalarmultB (Key.number L % Ed.l : ℤ)) Ed.ident = true := by
      rw [Ed.pointEqual_iff hrep Ed.rep_ident, base_zero]
      rw [h0]; rfl
    rw [hck, if_pos this]
  · intro h0
    have : ¬ Ed.pointEqual (Ed.scalarmultB (Key.number L % Ed.l : ℤ)) Ed.ident = true := by
      rw [Ed.pointEqual_iff hrep Ed.rep_ident, base_zero, Int.emod_emod_of_dvd _ (dvd_refl _)]
      exact h0
    rw [hck, if_neg this, hfp]
    have hlen : (hexlify ((h160 b).take 4)).length = 8 := by rw [hexlify_length]; simp [hh]
    have hlenR : (hexlify R).length = 64 := by rw [hexlify_length, hd]
    have h4 : hexlify (be 4 (m + 2 ^ 31)) ≠ [] := by
      intro he
      have := congrArg List.length he
      rw [hexlify_length, be_length] at this
      simp at this
    rw [hihex]
    cases hI : hexlify (be 4 (m + 2 ^ 31)) with
    | nil => exact absurd hI h4
    | cons d ds =>
      simp only [initWallet, initKeys, HexArg.h, HexArg.l, hlen, hlenR, ne_eq, not_true_eq_false, if_false]
      refine ⟨_, rfl, rfl, ⟨_, rfl, rfl⟩, ⟨Ed.encodePoint _, rfl⟩, rfl, ht, hd⟩

/-- An ordinary step is refused. -/
theorem getChild_slip_ordinary (hm : Bytes → Bytes → Bytes) (h160 : Bytes → Bytes) {w : Wallet} {x : Bytes × Bytes} (hr : ReprEd w x) (m : ℕ) :
    w.getChild hm h160 m none true = none := by
  have hidx : Bip.childIndex w.privateKey.isSome w.useEd m none = none := by
    rw [hr.ed]
    simp only [Bip.childIndex, Int.natAbs_natCast]
    split
    · rfl
    · rename_i h
      have h1 : ¬ ((m : ℤ) < 0) := by omega
      have h2 : ¬ ((m : ℤ) ≥ (0x80000000 : ℕ)) := by push_neg; omega
      rw [if_neg h1, if_neg h2]
      cases w.privateKey <;> simp
  unfold Wallet.getChild
  rw [hidx]

/-- Along a path of hardened steps. -/
theorem walk_slip (hm : Bytes → Bytes → Bytes) (hl : ∀ k m, (hm k m).length = 64) (h160 : Bytes → Bytes) (hh : ∀ m, (h160 m).length = 20)
    (mark : Char) (hk : mark = '\'' ∨ mark = 'p') : ∀ (is : List ℕ) (_ : ∀ i ∈ is, i < 2 ^ 31) {w : Wallet} {x : Bytes × Bytes}, ReprEd w x →
    ((∀ j < is.length, (Key.number (slipFollow hm (is.take (j + 1)) x).1 : ℤ) % Ed.l ≠ 0) →
      ∃ v, walk hm h160 (is.map fun i => stepText mark (i, true)) w = some v ∧ ReprEd v (slipFollow hm is x)) ∧
    ((∃ j < is.length, (Key.number (slipFollow hm (is.take (j + 1)) x).1 : ℤ) % Ed.l = 0) →
      walk hm h160 (is.map fun i => stepText mark (i, true)) w = none)
  | [], _, w, x, hr => ⟨fun _ => ⟨w, rfl, hr⟩, fun ⟨j, hj, _⟩ => absurd hj (Nat.not_lt_zero j)⟩
  | i :: is, hi, w, x, hr => by
    have hs := getChild_slip hm hl h160 hh hr i (hi i List.mem_cons_self)
    have hw : walk hm h160 ((i :: is).map fun i => stepText mark (i, true)) w =
        (w.getChild hm h160 i (some true) true).bind fun v => walk hm h160 (is.map fun i => stepText mark (i, true)) v := by
      rw [List.map_cons, walk, if_neg (by simp [stepText_m mark (i, true)]), parsePart_step mark hk]
      dsimp only
      rw [if_pos rfl]
      cases w.getChild hm h160 i (some true) true <;> rfl
    rw [hw]
    by_cases h0 : (Key.number (slipChild hm x i).1 : ℤ) % Ed.l = 0
    · rw [hs.1 h0]
      refine ⟨fun h => absurd h0 (h 0 (by simp)), fun _ => rfl⟩
    · obtain ⟨v, hv, hrv⟩ := hs.2 h0
      have ih := walk_slip hm hl h160 hh mark hk is (fun j hj => hi j (List.mem_cons_of_mem _ hj)) hrv
      rw [hv, Option.bind_some]
      constructor
      · intro h
        exact ih.1 fun j hj => h (j + 1) (by simpa using hj)
      · rintro ⟨j, hj, hz⟩
        cases j with
        | zero => exact absurd hz h0
        | succ j => exact ih.2 ⟨j, by simpa using hj, hz⟩

end Verif.Hd
