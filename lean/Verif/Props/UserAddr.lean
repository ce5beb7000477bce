import Verif.Model.UserAddr
import Verif.Props.HdPublic

/-!
C125: addresses for users are those of the public children of BIP32, without private key, different for different users.
-/

namespace Verif.Hd
open Verif HdSpec Secp
open Verif.Mnemonic (hexlify)

theorem publicChild (hm : Bytes → Bytes → Bytes) (hl : ∀ k m, (hm k m).length = 64) (h160 : Bytes → Bytes) (hh : ∀ m, (h160 m).length = 20)
    {w : Wallet} {N : Node} {net : Network} (hr : Repr w N net) (m : Nat) (hm31 : m < 2 ^ 31) :
    match N.child hm h160 m with
    | none => w.getChild hm h160 m (some false) false = none
    | some M => ∃ v x y, w.getChild hm h160 m (some false) false = some v ∧ ReprPub v x y M net := by
  have hidx : Bip.childIndex true false (m : ℤ) (some false) = some (m, false) := by
    have h3 : ¬ ((m : ℤ) < 0 ∨ (m : ℤ) ≥ (0x80000000 : ℕ)) := by push_neg; constructor <;> omega
    simp only [Bip.childIndex, Int.natAbs_natCast]
    rw [if_neg (by omega), if_neg h3]
    simp
  have hg := getChild_eq hm hl h160 hh hr m false (by omega) (by simp; omega) hidx
  have hpub : ∀ a p, w.getChild hm h160 a p false = (w.getChild hm h160 a p true).bind Wallet.publicCopy := by
    intro a p
    unfold Wallet.getChild
    split
    · rfl
    · dsimp only
      split
      · split
        · rfl
        · split
          · split
            · rfl
            · rfl
          · rfl
      · rfl
  rw [hpub]
  cases hc : N.child hm h160 m with
  | none => rw [hc] at hg; dsimp only at hg ⊢; rw [hg]; rfl
  | some M =>
    rw [hc] at hg
    obtain ⟨c, hcc, hrc⟩ := hg
    obtain ⟨u, x, y, hu, hru⟩ := publicCopy_eq hrc
    dsimp only
    rw [hcc, Option.bind_some]
    exact ⟨u, x, y, hu, hru⟩

/-- What a user's address is derived from: the left half of the code of the parent's public key and the user's number. -/
noncomputable def tweak (hm : Bytes → Bytes → Bytes) (N : Node) (user : ℕ) : Bytes := (hm N.key.c (serP (N.key.k • G) ++ be 4 user)).take 32

theorem child_key {hm : Bytes → Bytes → Bytes} {h160 : Bytes → Bytes} {N M : Node} {m : ℕ} (hm31 : m < 2 ^ 31) (h : N.child hm h160 m = some M) :
    num (tweak hm N m) < n ∧ M.key.k = (num (tweak hm N m) + N.key.k) % n := by
  rw [Node.child] at h
  have h31 : ¬ 2 ^ 31 ≤ m := by omega
  simp only [ckdPriv, if_neg h31] at h
  split at h
  · simp at h
  · rename_i hc
    push_neg at hc
    have e := Option.some.inj h
    exact ⟨hc.1, by rw [← e]; rfl⟩

/-- C125, part: for every wallet on a path below a seed and every number of a user below 2³¹ for which BIP32 has a child, the result has no private key, and
its key and address are those of the point that anyone computes from the public key and chain code of the wallet. Missing: wallets without private key, which
raise. -/
theorem C125_user_partial (hm : Bytes → Bytes → Bytes) (hl : ∀ k m, (hm k m).length = 64) (h160 : Bytes → Bytes) (hh : ∀ m, (h160 m).length = 20)
    (H : Bytes → Bytes) (seed : Bytes) (net : Network) (hnet : net ∈ networks) (mark : Char) (hk : mark = '\'' ∨ mark = 'p') (steps : List Step)
    (hs : ∀ s ∈ steps, s.1 < 2 ^ 31) {N : Node} (hN : (root hm seed).bind (Node.follow hm h160 steps) = some N) {w : Wallet}
    (hw : atPath hm h160 seed net (pathText 'm' mark steps) = some w) (user : ℕ) (hu : user < 2 ^ 31) :
    match ckdPub hm N.key.neuter user with
    | none => w.newAddressForUser hm h160 user = none
    | some X => ∃ v, w.newAddressForUser hm h160 user = some v ∧ v.privateKey = none ∧ v.publicKey.getKey true = hexlify (serP X.K) ∧
        X.K = num (tweak hm N user) • G + N.key.k • G ∧
        v.toAddress H h160 = some (B58.Btc.encodeCheck H (UInt8.ofNat net.pubkeyAddress :: h160 (serP X.K))) := by
  have h := atPath_eq hm hl h160 hh seed net mark hk steps hs
  rw [atPath, atPath_m hm h160 seed net mark hk] at hw
  rw [hN, hw] at h
  obtain ⟨v, hv, hr⟩ := h
  have hv' := Option.some.inj hv
  subst hv'
  have hnew : w.newAddressForUser hm h160 user = w.getChild hm h160 user (some false) false := by
    unfold Wallet.newAddressForUser
    rw [if_neg (by push_neg; constructor <;> omega)]
  have hc := publicChild hm hl h160 hh hr user hu
  have hp := C80_public_keys_partial hm h160 N [user] (by simpa using hu)
  have e : ckdPub hm N.key.neuter user = (N.child hm h160 user).map fun M => M.key.neuter := by
    simp only [followPub, List.map_cons, List.map_nil, Node.follow, Step.index, Bool.false_eq_true, if_false, Nat.add_zero, Option.bind_fun_some] at hp
    exact hp
  rw [hnew, e]
  cases hM : N.child hm h160 user with
  | none => rw [hM] at hc; exact hc
  | some M =>
    rw [hM] at hc
    obtain ⟨v, x, y, hv, hp⟩ := hc
    have hb : ∀ m ∈ networks, m.pubkeyAddress < 256 := by decide
    have hkey : v.publicKey.getKey true = hexlify (serP (M.key.k • G)) := by rw [hp.pub, pubKey_hex hp.rep]
    refine ⟨v, hv, hp.priv, hkey, ?_, ?_⟩
    · rw [show M.key.neuter.K = M.key.k • G from rfl, (child_key hu hM).2, (sum_G _ _).1]
    · rw [Wallet.toAddress, hkey, unhexlify_hexlify]
      dsimp only
      rw [hp.network, if_pos (hb net hnet)]
      rfl

/-- C125: numbers that are negative or from 2³¹ on are refused. -/
theorem C125_refused (hm : Bytes → Bytes → Bytes) (h160 : Bytes → Bytes) (w : Wallet) (user : ℤ) (h : user < 0 ∨ 2 ^ 31 ≤ user) :
    w.newAddressForUser hm h160 user = none := by
  unfold Wallet.newAddressForUser
  split
  · rfl
  · rename_i hc
    push_neg at hc
    have hu : user = 2 ^ 31 := by omega
    subst hu
    unfold Wallet.getChild
    have : ∀ a b, Bip.childIndex a b (2 ^ 31) (some false) = none := by decide
    rw [this]

/-- C125: if two users got the same key, the code of two different messages would have the same left half: those of the two numbers, with the chain code of
the wallet. -/
theorem C125_distinct_users (hm : Bytes → Bytes → Bytes) (hl : ∀ k m, (hm k m).length = 64) (h160 : Bytes → Bytes) (hh : ∀ m, (h160 m).length = 20)
    (seed : Bytes) (net : Network) (mark : Char) (hk : mark = '\'' ∨ mark = 'p') (steps : List Step)
    (hs : ∀ s ∈ steps, s.1 < 2 ^ 31) {N : Node} (hN : (root hm seed).bind (Node.follow hm h160 steps) = some N) {w : Wallet}
    (hw : atPath hm h160 seed net (pathText 'm' mark steps) = some w) (i j : ℕ) (hi : i < 2 ^ 31) (hj : j < 2 ^ 31) (hij : i ≠ j) {u v : Wallet}
    (h1 : w.newAddressForUser hm h160 i = some u) (h2 : w.newAddressForUser hm h160 j = some v) (he : u.publicKey.getKey true = v.publicKey.getKey true) :
    serP (N.key.k • G) ++ be 4 i ≠ serP (N.key.k • G) ++ be 4 j ∧
      (hm N.key.c (serP (N.key.k • G) ++ be 4 i)).take 32 = (hm N.key.c (serP (N.key.k • G) ++ be 4 j)).take 32 := by
  have h := atPath_eq hm hl h160 hh seed net mark hk steps hs
  rw [atPath, atPath_m hm h160 seed net mark hk] at hw
  rw [hN, hw] at h
  obtain ⟨w', hw', hr⟩ := h
  have hw'' := Option.some.inj hw'
  subst hw''
  have get : ∀ k (_ : k < 2 ^ 31) u, w.newAddressForUser hm h160 (k : ℕ) = some u → ∃ M, N.child hm h160 k = some M ∧ ∃ x y, ReprPub u x y M net := by
    intro k hk u hu
    unfold Wallet.newAddressForUser at hu
    rw [if_neg (by push_neg; constructor <;> omega)] at hu
    have hc := publicChild hm hl h160 hh hr k hk
    cases hM : N.child hm h160 k with
    | none => rw [hM] at hc; dsimp only at hc; rw [hc] at hu; cases hu
    | some M =>
      rw [hM] at hc
      obtain ⟨v, x, y, hv, hp⟩ := hc
      rw [hv] at hu
      cases hu
      exact ⟨M, rfl, x, y, hp⟩
  obtain ⟨M, hM, x, y, hp⟩ := get i hi u h1
  obtain ⟨M', hM', x', y', hp'⟩ := get j hj v h2
  rw [hp.pub, hp'.pub, pubKey_hex hp.rep, pubKey_hex hp'.rep] at he
  have hser := hexlify_inj he
  have hG : M.key.k • G = M'.key.k • G := by
    have e1 := fromHexKey_serP hp.rep net
    have e2 := fromHexKey_serP hp'.rep net
    rw [hser, e2] at e1
    cases e1
    exact rep_inj hp.rep hp'.rep
  obtain ⟨l1, k1⟩ := child_key hi hM
  obtain ⟨l2, k2⟩ := child_key hj hM'
  rw [k1, k2, nsmul_eq_nsmul_iff_modEq, order_G] at hG
  have hmod : num (tweak hm N i) + N.key.k ≡ num (tweak hm N j) + N.key.k [MOD n] := by
    have := hG
    unfold Nat.ModEq at this ⊢
    rwa [Nat.mod_mod, Nat.mod_mod] at this
  have hnum := Nat.ModEq.eq_of_lt_of_lt (Nat.ModEq.add_right_cancel' _ hmod) l1 l2
  have hlen : ∀ k, (tweak hm N k).length = 32 := by
    intro k
    rw [tweak, List.length_take, hl]
    rfl
  refine ⟨?_, ?_⟩
  · intro e
    have := congrArg num (List.append_cancel_left e)
    rw [num_be 4 i (by omega), num_be 4 j (by omega)] at this
    exact hij this
  · have a := be_num (tweak hm N i)
    have b := be_num (tweak hm N j)
    rw [hlen, hnum] at a
    rw [hlen] at b
    exact a.symm.trans b

/-- C125 is false of wallets without private key, for which the function was made: nothing comes out for any user, although BIP32 has the address. -/
theorem C125_false_public (hm : Bytes → Bytes → Bytes) (h160 : Bytes → Bytes) (w : Wallet) (hw : w.privateKey = none) (user : ℤ) :
    w.newAddressForUser hm h160 user = none := by
  unfold Wallet.newAddressForUser
  rw [C80_false hm h160 w hw]
  split <;> rfl

/-- C125, random wallets: with entropy of the user nothing comes out; without it, the wallet of the random bytes. -/
theorem C125_false_entropy (hm : Bytes → Bytes → Bytes) (rnd : Bytes) (net : Network) (e : List Char) (he : e ≠ []) :
    newRandomWallet hm rnd (some e) net = none ∧ newRandomWallet hm rnd none net = fromMasterSecret hm rnd net false := by
  cases e with
  | nil => exact absurd rfl he
  | cons c e => exact ⟨rfl, rfl⟩

theorem user_some (hm : Bytes → Bytes → Bytes) (hl : ∀ k m, (hm k m).length = 64) (h160 : Bytes → Bytes) (hh : ∀ m, (h160 m).length = 20)
    (seed : Bytes) (net : Network) (mark : Char) (hk : mark = '\'' ∨ mark = 'p') (steps : List Step)
    (hs : ∀ s ∈ steps, s.1 < 2 ^ 31) {N : Node} (hN : (root hm seed).bind (Node.follow hm h160 steps) = some N) {w : Wallet}
    (hw : atPath hm h160 seed net (pathText 'm' mark steps) = some w) (user : ℕ) (hu : user < 2 ^ 31) {M : Node} (hM : N.child hm h160 user = some M) :
    ∃ v, w.newAddressForUser hm h160 user = some v := by
  have h := atPath_eq hm hl h160 hh seed net mark hk steps hs
  rw [atPath, atPath_m hm h160 seed net mark hk] at hw
  rw [hN, hw] at h
  obtain ⟨v, hv, hr⟩ := h
  have hv' := Option.some.inj hv
  subst hv'
  have hc := publicChild hm hl h160 hh hr user hu
  rw [hM] at hc
  obtain ⟨v, -, -, hv, -⟩ := hc
  exact ⟨v, (if_neg (by push_neg; constructor <;> omega)).trans hv⟩

/-- There are such wallets and users: the demo wallet at `m/44'/0`, user 7. -/
example : ∃ N w v, (root Demo.hm [5]).bind (Node.follow Demo.hm Demo.h160 [(44, true), (0, false)]) = some N ∧
    atPath Demo.hm Demo.h160 [5] doge (pathText 'm' '\'' [(44, true), (0, false)]) = some w ∧ w.newAddressForUser Demo.hm Demo.h160 (7 : ℕ) = some v := by
  obtain ⟨w, hw⟩ := Demo.atPath_some [5] doge
  rw [show "m/44'/0".toList = pathText 'm' '\'' [(44, true), (0, false)] by decide +kernel] at hw
  obtain ⟨v, hv⟩ := user_some Demo.hm Demo.hm_length Demo.h160 Demo.h160_length [5] doge '\'' (Or.inl rfl) [(44, true), (0, false)] (by decide)
    (Demo.follow_eq [5]) hw 7 (by decide) (Demo.child_eq _ (by decide +kernel) 7)
  exact ⟨_, w, v, Demo.follow_eq [5], hw, hv⟩

end Verif.Hd
