import Verif.Lemmas.Account

/-! C92: the account the agent opens, saves and opens again. -/

namespace Verif.Acct
open Verif Verif.Ed Verif.Hd

/-- C92. A view key and the standard (or integrated) address it belongs to open the account of that address. -/
theorem C92_opens (o : Outside) (ho : o.Ok) {a : ℤ} (h0 : 0 ≤ a) (h1 : a < l) {P : Ext} (hP : isOnCurve P = true) {net : ℕ} {pid : Option Bytes} {t : Bytes}
    (ht : IsAddress o.hash t (encodePoint P) (encodePoint (scalarmultB a)) net false pid) (testnet : Bool) (ww mb : Option (List Char))
    (salt : Option Bytes) (pw : Bytes) (rpc : Option (List Char)) :
    ∃ acct, openPassed o (hexOf (encodeInt a)) t testnet ww mb salt pw rpc = some acct ∧ Holds acct a P t := by
  obtain ⟨_, _, _, ht⟩ := ht
  obtain ⟨info, d1, d2, d3⟩ := decode_public ho.hash (encode_len hP) (encode_len (onCurve_base h0)) ht
  simp only [Addr.Info.parts, Addr.Parts.mk.injEq] at d2
  obtain ⟨R, g1, g2, g3, _⟩ := encode_again hP
  have hset : setAddress o.hash a t = some t := setAddress_eq d1 (by rw [d2.1]; exact g1) (by rw [g3, d2.2.2.1, d2.2.2.2.2.2]; exact ht)
  obtain ⟨info', P', R', e1, e2, e3, e4, e5, e6, _⟩ := open_after_set ho.hash h0 hset
  refine ⟨⟨a, t, scalarmultB a, R', if testnet then 1 else 0, salt, pw, rpc, ww, mb⟩, ?_, rfl, rfl, by dsimp only, ?_⟩
  · unfold openPassed b16ToScalar hexOf
    rw [unhexText_text, Option.bind_some, C35_scalar_roundtrip a h0 h1, Option.bind_some]
    dsimp only
    rw [hset, Option.bind_some, e6, Option.map_some]
  · cases d1.symm.trans e1
    rw [d2.1] at e2
    cases g1.symm.trans e2
    show encodePoint R' = _
    rw [e5, g3]

/-- C92. Whatever opens, its address has the spend key, network and payment id of the text given, and the public keys are those of its address. -/
theorem C92_address_partial (o : Outside) (ho : o.Ok) {key t : Bytes} {testnet : Bool} {ww mb : Option (List Char)} {salt : Option Bytes} {pw : Bytes}
    {rpc : Option (List Char)} {acct : Account} (h : openPassed o key t testnet ww mb salt pw rpc = some acct) :
    ∃ info P, Addr.decodeAddr o.hash t = some info ∧ decodePoint info.spend = some P ∧
      (∃ b, unhexText key = some b ∧ decodeScalar b = some acct.view) ∧
      Addr.publicAddrEncode o.hash (encodePoint P) (encodePoint (scalarmultB acct.view)) false (some info.net) info.pid = some acct.address ∧
      Holds acct acct.view P acct.address := by
  unfold openPassed at h
  obtain ⟨a, h1, h⟩ := Option.bind_eq_some_iff.1 h
  dsimp only at h
  obtain ⟨t', h2, h⟩ := Option.bind_eq_some_iff.1 h
  obtain ⟨k, h3, rfl⟩ := Option.map_eq_some_iff.1 h
  obtain ⟨b, hb1, hb2⟩ := Option.bind_eq_some_iff.1 h1
  obtain ⟨info, P, R, e1, e2, e3, e4, e5, e6, _⟩ := open_after_set ho.hash (C35_scalar_range _ _ hb2).1 h2
  have hk : k = (scalarmultB a, R) := Option.some.inj (h3.symm.trans e6)
  subst hk
  exact ⟨info, P, e1, e2, ⟨b, hb1, hb2⟩, e3, rfl, rfl, by dsimp only, e5⟩

/-- C92 is false for a view key that does not belong to the address, and for a sub-address: whatever the view key in the text is, even one that is no
point at all, the account opens, with another address than the one given. The check of the view key compares the key with itself. -/
theorem C92_false_view_key (o : Outside) (ho : o.Ok) {a : ℤ} (h0 : 0 ≤ a) (h1 : a < l) {P : Ext} (hP : isOnCurve P = true) {net : ℕ} {view t : Bytes}
    {sub : Bool} (ht : IsAddress o.hash t (encodePoint P) view net sub none) (hne : sub = true ∨ view ≠ encodePoint (scalarmultB a))
    (testnet : Bool) (ww mb : Option (List Char)) (salt : Option Bytes) (pw : Bytes) (rpc : Option (List Char)) :
    ∃ acct, openPassed o (hexOf (encodeInt a)) t testnet ww mb salt pw rpc = some acct ∧ acct.address ≠ t := by
  obtain ⟨hl1, hl2, _, ht⟩ := ht
  obtain ⟨info, d1, d2, d3⟩ := decode_public ho.hash hl1 hl2 ht
  simp only [Addr.Info.parts, Addr.Parts.mk.injEq] at d2
  obtain ⟨R, g1, g2, g3, _⟩ := encode_again hP
  have hn : net < 3 := by
    unfold Addr.publicAddrEncode at ht
    rw [if_neg (by simp)] at ht
    obtain ⟨v, hver, _⟩ := Option.map_eq_some_iff.1 ht
    unfold Addr.netVersion at hver
    split at hver
    · cases hver
    · match net with
      | 0 => omega
      | 1 => omega
      | 2 => omega
      | n + 3 => simp [Addr.prefixes] at hver
  obtain ⟨t', _, ht', _⟩ := Addr.C25_roundtrip o.hash ho.hash (encodePoint P) (encodePoint (scalarmultB a)) hl1 (encode_len (onCurve_base h0)) net hn false
    none (by simp) (by simp)
  have hset : setAddress o.hash a t = some t' := setAddress_eq d1 (by rw [d2.1]; exact g1) (by rw [g3, d2.2.2.1, d2.2.2.2.2.2]; exact ht')
  obtain ⟨info', P', R', e1, e2, e3, e4, e5, e6, _⟩ := open_after_set ho.hash h0 hset
  refine ⟨⟨a, t', scalarmultB a, R', if testnet then 1 else 0, salt, pw, rpc, ww, mb⟩, ?_, ?_⟩
  · unfold openPassed b16ToScalar hexOf
    rw [unhexText_text, Option.bind_some, C35_scalar_roundtrip a h0 h1, Option.bind_some]
    dsimp only
    rw [hset, Option.bind_some, e6, Option.map_some]
  · rintro rfl
    obtain ⟨_, e7, _, e8, _⟩ := Addr.C25_injective o.hash ho.hash _ _ _ _ _ _ _ _ _ _ _ hl1 hl2 hl1 (encode_len (onCurve_base h0)) (by simp) (by simp) ht ht'
    rcases hne with h | h
    · rw [h] at e8; cases e8
    · exact h e7

/-- C92 is false for the network: the agent works on the network of its flag, whatever the network of the address. -/
theorem C92_false_network (o : Outside) (ho : o.Ok) {a : ℤ} (h0 : 0 ≤ a) (h1 : a < l) {P : Ext} (hP : isOnCurve P = true) {net : ℕ} {t : Bytes}
    (ht : IsAddress o.hash t (encodePoint P) (encodePoint (scalarmultB a)) net false none) (testnet : Bool) (ww mb : Option (List Char))
    (salt : Option Bytes) (pw : Bytes) (rpc : Option (List Char)) :
    ∃ acct, openPassed o (hexOf (encodeInt a)) t testnet ww mb salt pw rpc = some acct ∧ acct.address = t ∧ acct.net = if testnet then 1 else 0 := by
  obtain ⟨acct, h, hh⟩ := C92_opens o ho h0 h1 hP ht testnet ww mb salt pw rpc
  refine ⟨acct, h, hh.address, ?_⟩
  unfold openPassed at h
  obtain ⟨a, _, h⟩ := Option.bind_eq_some_iff.1 h
  dsimp only at h
  obtain ⟨t', _, h⟩ := Option.bind_eq_some_iff.1 h
  obtain ⟨k, _, rfl⟩ := Option.map_eq_some_iff.1 h
  rfl

/-- The accounts an agent can hold: opened from passed credentials, from a device, or from a file. -/
inductive Opened (o : Outside) : Account → Prop
  | passed {key t testnet ww mb salt pw rpc acct} : openPassed o key t testnet ww mb salt pw rpc = some acct → Opened o acct
  | device {key t testnet ww mb salt pw rpc acct} : openWatchOnly o key t testnet ww mb salt pw rpc = some acct → Opened o acct
  | file {fresh pw f acct} : openFile o fresh pw f = some acct → Opened o acct

/-- Such an account opens again from its own view key and address. -/
theorem Opened.again {o : Outside} (ho : o.Ok) {acct : Account} (h : Opened o acct) : 0 ≤ acct.view ∧ acct.view < l ∧
    setAddress o.hash acct.view acct.address = some acct.address ∧ openWithKeys o.hash acct.view acct.address = some (acct.pubView, acct.pubSpend) := by
  have key : ∀ {a : ℤ} {b t t' : Bytes} {k : Ext × Ext}, decodeScalar b = some a → setAddress o.hash a t = some t' → openWithKeys o.hash a t' = some k →
      0 ≤ a ∧ a < l ∧ setAddress o.hash a t' = some t' ∧ openWithKeys o.hash a t' = some (k.1, k.2) := by
    intro a b t t' k h1 h2 h3
    obtain ⟨r1, r2⟩ := C35_scalar_range _ _ h1
    obtain ⟨_, _, _, _, _, _, _, _, _, e⟩ := open_after_set ho.hash r1 h2
    exact ⟨r1, r2, e, h3⟩
  cases h with
  | passed h =>
    unfold openPassed at h
    obtain ⟨a, h1, h⟩ := Option.bind_eq_some_iff.1 h
    dsimp only at h
    obtain ⟨t', h2, h⟩ := Option.bind_eq_some_iff.1 h
    obtain ⟨k, h3, rfl⟩ := Option.map_eq_some_iff.1 h
    obtain ⟨b, _, hb2⟩ := Option.bind_eq_some_iff.1 h1
    exact key hb2 h2 h3
  | device h =>
    unfold openWatchOnly at h
    dsimp only at h
    obtain ⟨a, h1, h⟩ := Option.bind_eq_some_iff.1 h
    obtain ⟨t', h2, h⟩ := Option.bind_eq_some_iff.1 h
    obtain ⟨k, h3, rfl⟩ := Option.map_eq_some_iff.1 h
    exact key h1 h2 h3
  | file h =>
    unfold openFile at h
    obtain ⟨salt, _, h⟩ := Option.bind_eq_some_iff.1 h
    obtain ⟨a, h1, h⟩ := Option.bind_eq_some_iff.1 h
    obtain ⟨t', h2, h⟩ := Option.bind_eq_some_iff.1 h
    obtain ⟨k, h3, rfl⟩ := Option.map_eq_some_iff.1 h
    unfold fileKey at h1
    split at h1
    · obtain ⟨b, _, hb2⟩ := Option.bind_eq_some_iff.1 h1
      exact key hb2 h2 h3
    · split at h1
      · obtain ⟨b, _, hb2⟩ := Option.bind_eq_some_iff.1 h1
        obtain ⟨c, _, hb2⟩ := Option.bind_eq_some_iff.1 hb2
        exact key hb2 h2 h3
      · cases h1

/-- The parts of a saved cipher text. -/
theorem cipher_parts (nonce c : Bytes) (h : nonce.length = 12) : (nonce ++ c ++ []).take 12 = nonce ∧ (nonce ++ c ++ []).drop 12 = c := by
  rw [List.append_nil, ← h, List.take_left, List.drop_left]
  exact ⟨rfl, rfl⟩

/-- C92. An account that was saved opens again with its password, and is the same account. -/
theorem C92_saved_opens (o : Outside) (ho : o.Ok) {acct : Account} (h : Opened o acct) (fresh fresh' nonce : Bytes) (hn : nonce.length = 12) :
    openFile o fresh' acct.password (save o fresh nonce acct).2 = some (save o fresh nonce acct).1 ∧
    (save o fresh nonce acct).1 = { acct with salt := some (acct.salt.getD fresh) } := by
  obtain ⟨r1, r2, r3, r4⟩ := h.again ho
  refine ⟨?_, rfl⟩
  have hc := cipher_parts nonce (o.encrypt (o.kdf acct.password (acct.salt.getD fresh)) nonce (encodeInt acct.view)) hn
  unfold save
  dsimp only
  unfold openFile fileSalt
  dsimp only
  unfold hexOf
  rw [unhexText_text, Option.bind_some]
  unfold fileKey
  dsimp only
  rw [unhexText_text, Option.bind_some, hc.1, hc.2, ho.decrypt, Option.bind_some, C35_scalar_roundtrip _ r1 r2, Option.bind_some, r3, Option.bind_some, r4]
  rfl

/-- C92. A saved account opens only with a password that gives the same encryption key. -/
theorem C92_password (o : Outside) (hau : o.Authentic) (acct : Account) (fresh fresh' nonce pw : Bytes) (hn : nonce.length = 12) {acct' : Account}
    (h : openFile o fresh' pw (save o fresh nonce acct).2 = some acct') :
    o.kdf pw (acct.salt.getD fresh) = o.kdf acct.password (acct.salt.getD fresh) := by
  have hc := cipher_parts nonce (o.encrypt (o.kdf acct.password (acct.salt.getD fresh)) nonce (encodeInt acct.view)) hn
  unfold save at h
  dsimp only at h
  unfold openFile fileSalt at h
  dsimp only at h
  unfold hexOf at h
  rw [unhexText_text, Option.bind_some] at h
  obtain ⟨a, h1, _⟩ := Option.bind_eq_some_iff.1 h
  unfold fileKey at h1
  dsimp only at h1
  rw [unhexText_text, Option.bind_some, hc.1, hc.2] at h1
  obtain ⟨m, h2, _⟩ := Option.bind_eq_some_iff.1 h1
  exact hau _ _ _ _ _ h2

/-- C92. The account file does not hold the view key in the clear, and what it shows are the address, the network, the salt and the settings. -/
theorem C92_file (o : Outside) (fresh nonce : Bytes) (acct : Account) : (save o fresh nonce acct).2.viewKey = none ∧
    (save o fresh nonce acct).2.address = acct.address ∧ (save o fresh nonce acct).2.net = acct.net ∧
    (save o fresh nonce acct).2.viewKeyEnc =
      some (hexOf (nonce ++ o.encrypt (o.kdf acct.password (acct.salt.getD fresh)) nonce (encodeInt acct.view))) := by
  unfold save
  dsimp only
  rw [List.append_nil]
  exact ⟨rfl, rfl, rfl, rfl⟩

/-- C92. When the device's address is checked, an account with another view key, spend key or network than the device's is refused. -/
theorem C92_device (o : Outside) (ho : o.Ok) {acct : Account} (h : Opened o acct) {V P : Ext} {net : ℕ} {t : Bytes}
    (ht : IsAddress o.hash t (encodePoint P) (encodePoint V) net false none) (hc : (checkAddress acct t).isSome = true) :
    encodePoint acct.pubSpend = encodePoint P ∧ encodePoint (scalarmultB acct.view) = encodePoint V ∧
    Addr.publicAddrEncode o.hash (encodePoint acct.pubSpend) (encodePoint (scalarmultB acct.view)) false (some net) none = some acct.address := by
  obtain ⟨r1, r2, r3, r4⟩ := h.again ho
  have he : acct.address = t := by
    unfold checkAddress at hc
    split at hc
    · cases hc
    · rename_i hn; exact not_not.1 hn
  obtain ⟨hl1, hl2, _, ht⟩ := ht
  obtain ⟨info, d1, d2, d3⟩ := decode_public ho.hash hl1 hl2 ht
  obtain ⟨info', Q, s1, s2, s3⟩ := setAddress_some r3
  rw [he, d1] at s1
  cases s1
  have hQ := C49_decoded_on_curve _ _ s2
  obtain ⟨info', d1', d2', d3'⟩ := decode_public ho.hash (encode_len hQ) (encode_len (onCurve_base r1)) s3
  rw [he, d1] at d1'
  cases d1'
  have hk : acct.pubSpend = Q := by
    unfold openWithKeys at r4
    dsimp only at r4
    rw [he, d1, Option.bind_some, s2, Option.bind_some] at r4
    obtain ⟨v, _, r4⟩ := Option.bind_eq_some_iff.1 r4
    obtain ⟨e, _, r4⟩ := Option.bind_eq_some_iff.1 r4
    split at r4
    · simp only [Option.some.injEq, Prod.mk.injEq] at r4
      exact r4.2.symm
    · cases r4
  rw [d2, Addr.Parts.mk.injEq] at d2'
  simp only [Addr.Info.parts, Addr.Parts.mk.injEq] at d2
  rw [hk]
  refine ⟨d2'.1.symm, d2'.2.1.symm, ?_⟩
  rw [d2.2.2.1, d2.2.2.2.2.2] at s3
  exact s3

/-! The view key 5 and the spend key 3. -/

namespace Demo

/-- A key, with its length in unary. -/
def mark (k : Bytes) : Bytes := List.replicate k.length 1 ++ 0 :: k

def out : Outside where
  hash _ := [1, 2, 3, 4]
  kdf p s := p ++ s
  encrypt k _ m := mark k ++ m
  decrypt k _ c := if c.take (mark k).length = mark k then some (c.drop (mark k).length) else none

theorem out_ok : out.Ok where
  hash _ := by simp [out]
  decrypt k n m := by
    show (if _ then _ else _) = _
    rw [show out.encrypt k n m = mark k ++ m from rfl, List.take_left, if_pos rfl, List.drop_left]

theorem mark_inj : ∀ (k k' x x' : Bytes), mark k ++ x = mark k' ++ x' → k = k' := by
  have key : ∀ (n n' : ℕ) (k k' : Bytes), List.replicate n (1 : UInt8) ++ 0 :: k = List.replicate n' 1 ++ 0 :: k' → n = n' ∧ k = k' := by
    intro n
    induction n with
    | zero =>
      intro n' k k' h
      cases n' with
      | zero => simpa using h
      | succ n' => simp [List.replicate_succ] at h
    | succ n ih =>
      intro n' k k' h
      cases n' with
      | zero => simp [List.replicate_succ] at h
      | succ n' =>
        simp only [List.replicate_succ, List.cons_append, List.cons.injEq, true_and] at h
        obtain ⟨h1, h2⟩ := ih n' k k' h
        exact ⟨by rw [h1], h2⟩
  intro k k' x x' h
  simp only [mark, List.append_assoc, List.cons_append] at h
  obtain ⟨h1, h2⟩ := key _ _ _ _ h
  exact (List.append_inj h2 h1).1

theorem out_authentic : out.Authentic := by
  intro k k' n m m' h
  have h : (if (mark k' ++ m').take (mark k).length = mark k then some ((mark k' ++ m').drop (mark k).length) else none) = some m := h
  split at h
  · rename_i e
    have := List.take_append_drop (mark k).length (mark k' ++ m')
    rw [e] at this
    exact mark_inj _ _ _ _ this
  · cases h

/-- An address of the view key 5, on the main network. -/
example : ∃ t acct, openPassed out (hexOf (encodeInt 5)) t false none none none [7] none = some acct ∧ Holds acct 5 (scalarmultB 3) t ∧
    t.length = 95 ∧ (checkAddress acct t).isSome = true := by
  have hP := onCurve_base (a := 3) (by omega)
  have hV := onCurve_base (a := 5) (by omega)
  obtain ⟨t, _, ht, _⟩ := Addr.C25_roundtrip out.hash out_ok.hash _ _ (encode_len hP) (encode_len hV) 0 (by omega) false none (by simp) (by simp)
  obtain ⟨acct, h1, h2⟩ := C92_opens out out_ok (a := 5) (by omega) (by decide) hP ⟨encode_len hP, encode_len hV, by simp, ht⟩ false none none none [7] none
  refine ⟨t, acct, h1, h2, ?_, ?_⟩
  · simp [Addr.publicAddrEncode, Addr.netVersion, Addr.prefixes] at ht
    rw [← ht, Addr.encodeAddr, Addr.encodeCheck, B58.C23_length]
    simp [encode_len hP, encode_len hV, out]
    decide
  · rw [checkAddress, h2.address]
    simp

/-- A view key of 32 zeros is not that of 5, yet the address opens. -/
example : ∃ t acct, IsAddress out.hash t (encodePoint (scalarmultB 3)) (List.replicate 32 0) 0 false none ∧
    openPassed out (hexOf (encodeInt 5)) t false none none none [7] none = some acct ∧ acct.address ≠ t := by
  have hP := onCurve_base (a := 3) (by omega)
  obtain ⟨t, _, ht, _⟩ := Addr.C25_roundtrip out.hash out_ok.hash _ (List.replicate 32 0) (encode_len hP) (by simp) 0 (by omega) false none (by simp) (by simp)
  have hi : IsAddress out.hash t (encodePoint (scalarmultB 3)) (List.replicate 32 0) 0 false none := ⟨encode_len hP, by simp, by simp, ht⟩
  obtain ⟨acct, h1, h2⟩ := C92_false_view_key out out_ok (a := 5) (by omega) (by decide) hP hi (.inr (by decide +kernel)) false none none none [7] none
  exact ⟨t, acct, hi, h1, h2⟩

end Demo

end Verif.Acct
