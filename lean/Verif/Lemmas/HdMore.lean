import Verif.Lemmas.HdRound

/-! Along whole paths; networks of keys; recovering a parent. -/

namespace Verif.Hd
open Verif HdSpec Secp
open Verif.Mnemonic (hexlify parseHex hexlify_length hexlify_lt)

theorem follow_depth (hm : Bytes → Bytes → Bytes) (h160 : Bytes → Bytes) (steps : List Step) {N M : Node} (h : N.follow hm h160 steps = some M) :
    M.depth = N.depth + steps.length := by
  induction steps generalizing N with
  | nil => rw [Node.follow] at h; rw [← Option.some.inj h]; rfl
  | cons s ss ih =>
    rw [Node.follow, Node.child] at h
    cases hc : ckdPriv hm N.key (Step.index s) with
    | none => rw [hc] at h; simp at h
    | some x =>
      rw [hc] at h
      have := ih h
      simp only [List.length_cons] at this ⊢
      omega

theorem root_depth (hm : Bytes → Bytes → Bytes) (seed : Bytes) {N : Node} (h : root hm seed = some N) : N.depth = 0 := by
  rw [root] at h
  cases hm' : master hm seed with
  | none => rw [hm'] at h; simp at h
  | some x => rw [hm'] at h; rw [← Option.some.inj h]

theorem nodeAt_depth (hm : Bytes → Bytes → Bytes) (h160 : Bytes → Bytes) (seed : Bytes) (steps : List Step) {N : Node}
    (h : (root hm seed).bind (Node.follow hm h160 steps) = some N) : N.depth = steps.length := by
  cases hr : root hm seed with
  | none => rw [hr] at h; cases h
  | some R =>
    rw [hr] at h
    have := follow_depth hm h160 steps (N := R) (M := N) h
    rw [root_depth hm seed hr] at this
    omega

theorem getChildForPath_eq (hm : Bytes → Bytes → Bytes) (h160 : Bytes → Bytes) (w : Wallet) (mark : Char) (hk : mark = '\'' ∨ mark = 'p')
    (first : Char) (hf : first = 'm' ∨ first = 'M') (steps : List Step) :
    w.getChildForPath hm h160 (pathText first mark steps) =
      (walk hm h160 (steps.map (stepText mark)) w).bind (fun v => if first = 'm' then some v else v.publicCopy) := by
  have h1 := path_nopub first mark hf hk steps
  have h2 : pathText first mark steps ≠ [] := by simp [pathText]
  have h3 : (pathText first mark steps).head? = some first := rfl
  have h4 : first ≠ '/' := by rcases hf with rfl | rfl <;> decide
  unfold Wallet.getChildForPath
  simp only [h1, decide_false, Bool.or_false, Bool.false_eq_true, if_false, h3, if_neg h2]
  rw [splitSlash_path first mark h4 hk, walk, if_pos (by rcases hf with rfl | rfl <;> simp)]
  cases walk hm h160 (steps.map (stepText mark)) w with
  | none => rfl
  | some v => rcases hf with rfl | rfl <;> simp

theorem getChildForPath_pub (hm : Bytes → Bytes → Bytes) (h160 : Bytes → Bytes) (w : Wallet) (mark : Char) (hk : mark = '\'' ∨ mark = 'p')
    (first : Char) (hf : first = 'm' ∨ first = 'M') (steps : List Step) :
    w.getChildForPath hm h160 (pathText first mark steps ++ ['.', 'p', 'u', 'b']) =
      (walk hm h160 (steps.map (stepText mark)) w).bind Wallet.publicCopy := by
  have hl : (pathText first mark steps ++ ['.', 'p', 'u', 'b']).length - 4 = (pathText first mark steps).length := by
    rw [List.length_append]; simp
  have h2 : pathText first mark steps ++ ['.', 'p', 'u', 'b'] ≠ [] := by simp
  have h4 : first ≠ '/' := by rcases hf with rfl | rfl <;> decide
  unfold Wallet.getChildForPath
  simp only [hl, List.drop_left, List.take_left, decide_true, Bool.or_true, Bool.not_true, if_true, if_neg h2]
  rw [splitSlash_path first mark h4 hk, walk, if_pos (by rcases hf with rfl | rfl <;> simp)]
  cases walk hm h160 (steps.map (stepText mark)) w with
  | none => rfl
  | some v => simp

/-- The wallet at a path represents the node at the path. -/
theorem atPath_eq (hm : Bytes → Bytes → Bytes) (hl : ∀ k m, (hm k m).length = 64) (h160 : Bytes → Bytes) (hh : ∀ m, (h160 m).length = 20)
    (seed : Bytes) (net : Network) (mark : Char) (hk : mark = '\'' ∨ mark = 'p') (steps : List Step) (hs : ∀ s ∈ steps, s.1 < 2 ^ 31) :
    match (root hm seed).bind (Node.follow hm h160 steps) with
    | none => (fromMasterSecret hm seed net false).bind (fun w => walk hm h160 (steps.map (stepText mark)) w) = none
    | some N => ∃ w, (fromMasterSecret hm seed net false).bind (fun w => walk hm h160 (steps.map (stepText mark)) w) = some w ∧ Repr w N net := by
  have h := fromMaster_eq hm hl seed net
  cases hr : root hm seed with
  | none => rw [hr] at h; rw [h]; rfl
  | some R =>
    rw [hr] at h
    obtain ⟨w, hw, hR, -⟩ := h
    rw [hw]
    exact walk_eq hm hl h160 hh mark hk steps hs hR

theorem atPath_m (hm : Bytes → Bytes → Bytes) (h160 : Bytes → Bytes) (seed : Bytes) (net : Network) (mark : Char) (hk : mark = '\'' ∨ mark = 'p')
    (steps : List Step) : (fromMasterSecret hm seed net false).bind (fun w => w.getChildForPath hm h160 (pathText 'm' mark steps)) =
      (fromMasterSecret hm seed net false).bind (fun w => walk hm h160 (steps.map (stepText mark)) w) := by
  congr 1
  funext w
  rw [getChildForPath_eq hm h160 w mark hk 'm' (Or.inl rfl) steps]
  cases walk hm h160 (steps.map (stepText mark)) w <;> simp

/-! ## Networks of the keys -/

theorem initWallet_pair {cc pf cn : HexArg} {d : ℕ} {priv : PrivateKey} {pub : PublicKey} {net : Network} {v : Wallet}
    (h : initWallet cc d pf cn none (some priv) none (some pub) net none false = some v) : v.privateKey = some priv ∧ v.publicKey = pub := by
  unfold initWallet at h
  cases hq : initKeys none (some priv) none (some pub) net false with
  | none => rw [hq] at h; cases h
  | some q =>
    have hq' : q = (some priv, pub) := by
      simp only [initKeys, Option.filter_none, Option.isNone_none, Option.isNone_some, Bool.and_false, Bool.false_and, Bool.false_eq_true, if_false] at hq
      cases hp : priv.getPublicKey with
      | none => rw [hp] at hq; cases hq
      | some P =>
        rw [hp] at hq
        dsimp only at hq
        split at hq
        · exact (Option.some.inj hq).symm
        · cases hq
    rw [hq, hq'] at h
    dsimp only at h
    split at h
    · rw [← Option.some.inj h]; exact ⟨rfl, rfl⟩
    · cases h

/-- The keys of a derived node always belong to the Bitcoin main network. -/
theorem getChild_net (hm : Bytes → Bytes → Bytes) (h160 : Bytes → Bytes) {w v : Wallet} {number : ℤ} {isPrime : Option Bool} (he : w.useEd = false)
    (h : w.getChild hm h160 number isPrime true = some v) :
    (∃ k, v.privateKey = some (.secp k btc false)) ∧ ∃ x y, v.publicKey = .secp x y btc false := by
  unfold Wallet.getChild at h
  rw [he] at h
  split at h
  · cases h
  · dsimp only at h
    split at h
    · split at h
      · cases h
      · split at h
        · rename_i priv pub fp hck _
          split at h
          · cases h
          · rename_i child hch
            simp only [if_true] at h
            have hc := Option.some.inj h
            subst hc
            obtain ⟨h1, h2⟩ := initWallet_pair hch
            unfold childKeys at hck
            rw [he] at hck
            simp only [Bool.false_eq_true, if_false] at hck
            split at hck
            · split at hck
              · cases hck
              · rename_i pr hpr
                unfold mkPrivate at hpr
                split at hpr
                · have hpr' := Option.some.inj hpr
                  subst hpr'
                  simp only [PrivateKey.getPublicKey] at hck
                  split at hck
                  · simp only [Option.map_some, Option.some.injEq, Prod.mk.injEq] at hck
                    rw [h1, h2, ← hck.1, ← hck.2]
                    exact ⟨⟨_, rfl⟩, _, _, rfl⟩
                  · cases hck
                · cases hpr
            · cases hck
        · cases h
    · cases h

theorem getChild_ed (hm : Bytes → Bytes → Bytes) (h160 : Bytes → Bytes) {w v : Wallet} {number : ℤ} {isPrime : Option Bool}
    (h : w.getChild hm h160 number isPrime true = some v) : v.useEd = w.useEd := by
  unfold Wallet.getChild at h
  split at h
  · cases h
  · dsimp only at h
    split at h
    · split at h
      · cases h
      · split at h
        · split at h
          · cases h
          · rename_i child hch
            simp only [if_true] at h
            have hc := Option.some.inj h
            subst hc
            unfold initWallet at hch
            split at hch
            · cases hch
            · split at hch
              · rw [← Option.some.inj hch]
              · cases hch
        · cases h
    · cases h

theorem walk_net (hm : Bytes → Bytes → Bytes) (h160 : Bytes → Bytes) (mark : Char) (hk : mark = '\'' ∨ mark = 'p') (s : Step) (ss : List Step)
    {w v : Wallet} (he : w.useEd = false) (h : walk hm h160 ((s :: ss).map (stepText mark)) w = some v) :
    (∃ k, v.privateKey = some (.secp k btc false)) ∧ ∃ x y, v.publicKey = .secp x y btc false := by
  induction ss generalizing s w with
  | nil =>
    rw [List.map_cons, List.map_nil, walk, if_neg (by simp [stepText_m mark s]), parsePart_step mark hk] at h
    dsimp only at h
    split at h
    · cases h
    · rename_i c hc
      rw [walk] at h
      rw [← Option.some.inj h]
      exact getChild_net hm h160 he hc
  | cons t ss ih =>
    rw [List.map_cons, walk, if_neg (by simp [stepText_m mark s]), parsePart_step mark hk] at h
    dsimp only at h
    split at h
    · cases h
    · rename_i c hc
      exact ih t (by rw [getChild_ed hm h160 hc, he]) h

/-! ## Odd lengths -/

theorem unhexlify_odd : ∀ (k : ℕ) (l : List ℕ), l.length = 2 * k + 1 → unhexlify l = none
  | 0, l, h => by
    match l, h with
    | [_], _ => rfl
  | k + 1, l, h => by
    match l, h with
    | a :: b :: r, h =>
      rw [unhexlify, unhexlify_odd k r (by simp at h; omega)]
      rfl

theorem longToHex_length {v : ℕ} (k : ℕ) (h1 : 16 ^ k ≤ v) (h2 : v < 16 ^ (k + 1)) (j : ℕ) (hj : j ≤ k + 1) : (longToHex v j).length = k + 1 := by
  have e : longToHex v (k + 1) = Dig.toBE 16 (k + 1) v := longToHex_eq _ _ h2
  have hl : (longToHex v (k + 1)).length = k + 1 := by rw [e, Dig.toBE_length]
  unfold longToHex at hl ⊢
  rw [List.length_append, List.length_replicate] at hl ⊢
  rw [Mnemonic.hexNat_eq] at hl ⊢
  have hlt := Dig.natDigits_lt (by omega : 1 < 16) v
  have hval := Dig.ofBE_natDigits (by omega : 1 < 16) v
  generalize Dig.natDigits 16 _ v = l at *
  have := Dig.ofBE_lt l hlt
  rw [hval] at this
  have hk : k < l.length := by
    by_contra hc
    have : 16 ^ l.length ≤ 16 ^ k := Nat.pow_le_pow_right (by omega) (by omega)
    omega
  omega

/-! ## Recovering the parent -/

theorem initKeys_priv {k : ℕ} {net : Network} {c : Bool} {P : PublicKey} (hP : (PrivateKey.secp k net c).getPublicKey = some P)
    (net' : Network) : initKeys none (some (.secp k net c)) none none net' false = some (some (.secp k net c), P) := by
  have he : P.eq P = true := by
    apply eq_self
    intro Q h
    subst h
    simp only [PrivateKey.getPublicKey] at hP
    split at hP <;> simp at hP
  simp [initKeys, hP, he]

end Verif.Hd
