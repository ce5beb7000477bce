import Verif.Model.KeysFile
import Verif.Props.Enc

/-! C69: the wallet keys file. -/

namespace Verif.KeysFile
open Verif Enc

/-- What is assumed of the codecs: each reads what it wrote; escaping puts a backslash before every quote and leaves no newline and no empty text; the json
module writes an object on one line. -/
structure Codec.Lawful {K J : Type} (c : Codec K J) : Prop where
  parse : ∀ k, c.parse (c.ser k) = some k
  unesc : ∀ s, c.unesc (c.esc s) = some s
  load : ∀ j, c.load (c.dump j) = some j
  unpack : ∀ a b, a.length = 8 → c.unpack (c.pack a b) = some (a, b)
  quote : ∀ (s : Bytes) (a b : Bytes), c.esc s = a ++ 0x22 :: b → ∃ a', a = a' ++ [0x5c]
  oneLine : ∀ s, (0x0a : UInt8) ∉ c.esc s
  full : ∀ k, c.esc (c.ser k) ≠ []
  object : ∀ j, ∃ r, c.dump j = 0x7b :: r ∧ (0x0a : UInt8) ∉ r ∧ ¬ tag <:+: r

theorem lazyKey_none (e r : Bytes) (h0 : e ≠ []) (hn : (0x0a : UInt8) ∉ e) (hi : ¬ [0x22, 0x2c] <:+: e) :
    lazyKey (e ++ (0x22 :: 0x2c :: r)) = some (e, r) := by
  induction e with
  | nil => exact absurd rfl h0
  | cons b e ih =>
    have hb : b ≠ 0x0a := fun h => hn (h ▸ List.mem_cons_self)
    unfold lazyKey
    rw [List.cons_append]
    simp only [hb, if_false]
    cases e with
    | nil => simp
    | cons b' e' =>
      have ht : ((b' :: e') ++ (0x22 :: 0x2c :: r)).take 2 ≠ [0x22, 0x2c] := by
        intro h
        cases e' with
        | nil => simp at h
        | cons b'' e'' =>
          simp only [List.cons_append, List.take_succ_cons, List.take_zero, List.cons.injEq, and_true] at h
          exact hi ⟨[b], e'', by rw [h.1, h.2]; rfl⟩
      rw [if_neg ht, ih (by simp) (fun h => hn (List.mem_cons_of_mem _ h)) (fun h => hi (h.trans (List.suffix_cons b _).isInfix))]
      rfl

theorem line_full (d : Bytes) (h : (0x0a : UInt8) ∉ d) : line d = d := by
  unfold line
  induction d with
  | nil => rfl
  | cons b d ih =>
    have hb : b ≠ 0x0a := fun h' => h (h' ▸ List.mem_cons_self)
    rw [List.takeWhile_cons_of_pos (by simpa using hb), ih (fun h' => h (List.mem_cons_of_mem _ h'))]

/-- If the tag occurs after one byte and nowhere further right, the first group is that byte. -/
theorem matchFrom_one (d : Bytes) (n : ℕ) (hn : 1 ≤ n) (h : ∀ m, 1 < m → (d.drop m).take 12 ≠ tag) (h1 : (d.drop 1).take 12 = tag) (k a : Bytes)
    (hk : lazyKey (d.drop 13) = some (k, a)) : matchFrom d n = some (d.take 1, k, line a) := by
  induction n with
  | zero => omega
  | succ n ih =>
    unfold matchFrom
    by_cases hn1 : n = 0
    · subst hn1
      rw [if_pos h1, hk]
      rfl
    · rw [if_neg (h (n + 1) (by omega))]
      exact ih (by omega)

theorem search_compose (e r : Bytes) (h0 : e ≠ []) (hn : (0x0a : UInt8) ∉ e) (hr : (0x0a : UInt8) ∉ r) (hi : ¬ [0x22, 0x2c] <:+: e)
    (hq : ∀ a b, e = a ++ 0x22 :: b → ∃ a', a = a' ++ [0x5c]) (ht : ¬ tag <:+: r) :
    search (compose e (0x7b :: r)) = some ([0x7b], e, r) := by
  have hd : compose e (0x7b :: r) = 0x7b :: (tag ++ (e ++ (0x22 :: 0x2c :: r))) := rfl
  have hnl : (0x0a : UInt8) ∉ compose e (0x7b :: r) := by
    rw [hd]
    simp only [List.mem_cons, List.mem_append, not_or]
    exact ⟨by decide, by decide, hn, by decide, by decide, hr⟩
  have hfar : ∀ m, 1 < m → ((compose e (0x7b :: r)).drop m).take 12 ≠ tag := by
    intro m hm ht'
    rw [hd] at ht'
    obtain ⟨m, rfl⟩ : ∃ i, m = i + 1 := ⟨m - 1, by omega⟩
    rw [List.drop_succ_cons] at ht'
    -- the tag starts at position m ≥ 1 of `tag ++ (e ++ …)`
    have hpre : tag <+: (tag ++ (e ++ (0x22 :: 0x2c :: r))).drop m := by
      have := List.take_prefix 12 ((tag ++ (e ++ (0x22 :: 0x2c :: r))).drop m)
      rwa [ht'] at this
    obtain ⟨z, hz⟩ := hpre
    have last : ∀ a a' : Bytes, a ++ tag.take 9 = a' ++ [0x5c] → False := by
      intro a a' h
      have := congrArg List.getLast? h
      rw [List.getLast?_append_of_ne_nil _ (by decide), List.getLast?_append_of_ne_nil _ (by decide)] at this
      revert this
      decide
    have last' : ∀ a' : Bytes, (tag.drop 1).take 8 = a' ++ [0x5c] → False := by
      intro a' h
      have := congrArg List.getLast? h
      rw [List.getLast?_append_of_ne_nil _ (by decide)] at this
      revert this
      decide
    by_cases hm11 : m = 11
    · subst hm11
      have hz' : tag.drop 1 ++ z = e ++ (0x22 :: 0x2c :: r) := (List.cons.inj hz).2
      rcases List.append_eq_append_iff.mp hz' with ⟨u, hu, hv⟩ | ⟨u, hu, hv⟩
      · obtain ⟨a', ha'⟩ := hq ((tag.drop 1).take 8) ((tag.drop 1).drop 9 ++ u) (by rw [hu]; simp [tag])
        exact last' a' ha'
      · have hlen : e.length + u.length = 11 := by rw [← List.length_append, ← hu]; rfl
        have hel : 1 ≤ e.length := List.length_pos_iff.mpr h0
        have hep : e = (tag.drop 1).take e.length := by rw [hu, List.take_left]
        have hup : u = (tag.drop 1).drop e.length := by rw [hu, List.drop_left]
        generalize e.length = n at hel hlen hep hup
        by_cases h9 : 9 ≤ n
        · obtain ⟨a', ha'⟩ := hq ((tag.drop 1).take 8) (((tag.drop 1).take n).drop 9) (by
            conv => lhs; rw [hep]
            have : n ≤ 11 := by omega
            interval_cases n <;> simp [tag])
          exact last' a' ha'
        · have hh := congrArg (fun l => l.take 2) hv
          simp only [List.take_succ_cons, List.take_zero] at hh
          rw [hup, List.take_append_of_le_length (by rw [List.length_drop]; show 2 ≤ 11 - n; omega)] at hh
          revert hh
          have : n < 9 := by omega
          interval_cases n <;> decide
    by_cases hm12 : m < 11
    · have hm1 : 1 ≤ m := by omega
      rw [List.drop_append_of_le_length (by show m ≤ 12; omega)] at hz
      have hh := congrArg (fun l => l.take (12 - m)) hz
      rw [List.take_append_of_le_length (by show 12 - m ≤ 12; omega), List.take_append_of_le_length (by
        rw [List.length_drop]; show 12 - m ≤ 12 - m; omega)] at hh
      revert hh
      interval_cases m <;> decide
    · rw [List.drop_append, show tag.length = 12 from rfl, List.drop_eq_nil_of_le (by show 12 ≤ m; omega), List.nil_append] at hz
      generalize m - 12 = i at hz
      by_cases hie : i < e.length
      · rw [List.drop_append_of_le_length (by omega)] at hz
        have hsuf : e = e.take i ++ e.drop i := (List.take_append_drop i e).symm
        generalize e.drop i = f at hz hsuf
        -- f is a suffix of e, the tag starts f ++ `",…`
        rcases List.append_eq_append_iff.mp hz with ⟨u, hu, hv⟩ | ⟨u, hu, hv⟩
        · -- f = tag ++ u: a quote after the letter a
          obtain ⟨a', ha'⟩ := hq (e.take i ++ tag.take 9) (tag.drop 10 ++ u) (by
            conv => lhs; rw [hsuf, hu]
            simp [tag])
          exact last _ _ ha'
        · -- tag = f ++ u, u starts with `",`
          have hlen : f.length + u.length = 12 := by rw [← List.length_append, ← hu]; rfl
          have hf0 : f ≠ [] := by
            intro hf
            have := congrArg List.length hsuf
            rw [hf, List.append_nil, List.length_take] at this
            omega
          have hfl : 1 ≤ f.length := List.length_pos_iff.mpr hf0
          have hfp : f = tag.take f.length := by rw [hu, List.take_left]
          have hup : u = tag.drop f.length := by rw [hu, List.drop_left]
          generalize f.length = n at hfl hlen hfp hup
          have hn12 : n ≤ 12 := by omega
          by_cases h11 : n = 11 ∨ n = 12
          · obtain ⟨a', ha'⟩ := hq (e.take i ++ tag.take 9) ((tag.take n).drop 10) (by
              conv => lhs; rw [hsuf, hfp]
              rcases h11 with rfl | rfl <;> simp [tag])
            exact last _ _ ha'
          · have hh := congrArg (fun l => l.take 2) hv
            simp only [List.take_succ_cons, List.take_zero] at hh
            rw [hup, List.take_append_of_le_length (by rw [List.length_drop]; show 2 ≤ 12 - n; omega)] at hh
            revert hh
            have : n < 11 := by omega
            interval_cases n <;> decide
      · rw [List.drop_append, List.drop_eq_nil_of_le (by omega), List.nil_append] at hz
        generalize i - e.length = j at hz
        match j, hz with
        | 0, hz => simp [tag] at hz
        | 1, hz => simp [tag] at hz
        | j + 2, hz =>
          rw [List.drop_succ_cons, List.drop_succ_cons] at hz
          exact ht (List.IsInfix.trans ⟨[], z, by rw [List.nil_append]; exact hz⟩ (List.drop_suffix j r).isInfix)
  have h1 : ((compose e (0x7b :: r)).drop 1).take 12 = tag := by
    rw [hd, List.drop_succ_cons, List.drop_zero]; exact List.take_left' rfl
  have h13 : (compose e (0x7b :: r)).drop 13 = e ++ (0x22 :: 0x2c :: r) := by
    rw [hd, List.drop_succ_cons]; exact List.drop_left' rfl
  have key := matchFrom_one (compose e (0x7b :: r)) (line (compose e (0x7b :: r))).length (by rw [line_full _ hnl, hd]; simp) hfar h1 e r
    (by rw [h13]; exact lazyKey_none e r h0 hn hi)
  rw [hd] at key ⊢
  unfold search
  rw [key, line_full _ hr]
  rfl

/-- C69. A keys file is loaded again with its password, key data and other fields as they were, if the escaped key data does not contain a quote followed by
a comma. Partial: see C69_false_comma. -/
theorem C69_load_partial {K J : Type} (x : Ciphers) (hx : Involutive x) (c : Codec K J) (hc : c.Lawful) (nonce password : Bytes)
    (hn : nonce.length = 8) (k : K) (j : J) (h : ¬ [0x22, 0x2c] <:+: c.esc (c.ser k)) :
    ∃ data, (gen x c nonce password ⟨some k, j⟩).1 = some data ∧ load x c password data = some ⟨some k, j⟩ := by
  refine ⟨_, rfl, ?_⟩
  unfold load
  rw [hc.unpack _ _ (by
    rw [List.length_take]
    unfold encrypt
    rw [List.length_append, hn]; omega)]
  simp only
  rw [List.take_append_drop, decrypt_encrypt x hx _ _ _ hn]
  simp only
  obtain ⟨r, hr, hr1, hr2⟩ := hc.object j
  rw [hr, search_compose _ r (hc.full k) (hc.oneLine _) hr1 h (hc.quote _) hr2]
  simp only [hc.unesc, hc.parse]
  show (match some k, c.load (0x7b :: r) with | some k, some j => some (⟨some k, j⟩ : Wallet K J) | _, _ => none) = _
  rw [← hr, hc.load]

/-- The escaping of epee, which the external package follows. -/
def escByte (b : UInt8) : Bytes :=
  if b = 0x08 then [0x5c, 0x62] else if b = 0x0c then [0x5c, 0x66] else if b = 0x0a then [0x5c, 0x6e] else if b = 0x0d then [0x5c, 0x72]
  else if b = 0x09 then [0x5c, 0x74] else if b = 0x0b then [0x5c, 0x76] else if b = 0x22 then [0x5c, 0x22] else if b = 0x5c then [0x5c, 0x5c]
  else if b = 0x2f then [0x5c, 0x2f] else [b]

def unescByte (b : UInt8) : UInt8 :=
  if b = 0x62 then 0x08 else if b = 0x66 then 0x0c else if b = 0x6e then 0x0a else if b = 0x72 then 0x0d else if b = 0x74 then 0x09
  else if b = 0x76 then 0x0b else b

def epeeUnescape : Bytes → Option Bytes
  | [] => some []
  | [b] => if b = 0x5c then some [] else some [b]
  | b :: b' :: r => if b = 0x5c then (epeeUnescape r).map (unescByte b' :: ·) else (epeeUnescape (b' :: r)).map (b :: ·)

/-- Keys are bytes serialised after a marker, the other fields are a number printed in unary; the archive puts the length of the nonce first. -/
def epee : Codec Bytes ℕ where
  ser k := 1 :: k
  parse s := if s.head? = some 1 then some s.tail else none
  esc s := s.flatMap escByte
  unesc := epeeUnescape
  dump n := 0x7b :: List.replicate n 0x31
  load s := if s.head? = some 0x7b then some (s.length - 1) else none
  pack a b := UInt8.ofNat a.length :: (a ++ b)
  unpack s := match s with
    | [] => none
    | n :: r => some (r.take n.toNat, r.drop n.toNat)

/-- A cipher that does nothing, good enough to try. -/
def plainCipher : Ciphers := ⟨id, id, fun _ _ d => d⟩

theorem unesc_cons (b : UInt8) (s : Bytes) : epeeUnescape (escByte b ++ s) = (epeeUnescape s).map (b :: ·) := by
  by_cases h : ∃ b', escByte b = [0x5c, b'] ∧ unescByte b' = b
  · obtain ⟨b', h1, h2⟩ := h
    rw [h1]
    show epeeUnescape (0x5c :: b' :: s) = _
    rw [epeeUnescape, if_pos rfl, h2]
  · have hs : escByte b = [b] ∧ b ≠ 0x5c := by
      unfold escByte at h ⊢
      split at h
      · rename_i hb; exact absurd ⟨_, rfl, by rw [hb]; decide⟩ h
      split at h
      · rename_i hb; exact absurd ⟨_, rfl, by rw [hb]; decide⟩ h
      split at h
      · rename_i hb; exact absurd ⟨_, rfl, by rw [hb]; decide⟩ h
      split at h
      · rename_i hb; exact absurd ⟨_, rfl, by rw [hb]; decide⟩ h
      split at h
      · rename_i hb; exact absurd ⟨_, rfl, by rw [hb]; decide⟩ h
      split at h
      · rename_i hb; exact absurd ⟨_, rfl, by rw [hb]; decide⟩ h
      split at h
      · rename_i hb; exact absurd ⟨_, rfl, by rw [hb]; decide⟩ h
      split at h
      · rename_i hb; exact absurd ⟨_, rfl, by rw [hb]; decide⟩ h
      split at h
      · rename_i hb; exact absurd ⟨_, rfl, by rw [hb]; decide⟩ h
      rename_i h1 h2 h3 h4 h5 h6 h7 h8 h9
      simp only [h1, h2, h3, h4, h5, h6, h7, h8, h9, if_false]
      exact ⟨trivial, h8⟩
    rw [hs.1]
    cases s with
    | nil => show (if b = 0x5c then some [] else some [b]) = _; rw [if_neg hs.2]; rfl
    | cons c s => show epeeUnescape (b :: c :: s) = _; rw [epeeUnescape, if_neg hs.2]

theorem esc_quote (b : UInt8) (a r : Bytes) (h : escByte b = a ++ 0x22 :: r) : a = [0x5c] := by
  unfold escByte at h
  match a, h with
  | [], h =>
    exfalso
    repeat' split at h
    all_goals first | (simp at h; done) | skip
    rename_i _ _ _ _ _ _ hq _ _
    exact hq (List.cons.inj h).1
  | [c], h =>
    repeat' split at h
    all_goals first | (simp at h; done) | skip
    exact congrArg (fun x => [x]) (List.cons.inj h).1.symm
  | c :: c' :: a, h =>
    exfalso
    repeat' split at h
    all_goals simp at h

theorem esc_line (b : UInt8) : (0x0a : UInt8) ∉ escByte b := by
  unfold escByte
  repeat' split
  all_goals first | decide | skip
  rename_i _ _ h _ _ _ _ _ _
  intro hm
  exact h (List.mem_singleton.mp hm).symm

theorem epee_lawful : epee.Lawful where
  parse k := rfl
  unesc s := by
    show epeeUnescape (s.flatMap escByte) = some s
    induction s with
    | nil => rfl
    | cons b s ih => rw [List.flatMap_cons, unesc_cons, ih]; rfl
  load n := by
    show (if (0x7b :: List.replicate n (0x31 : UInt8)).head? = some 0x7b then some ((0x7b :: List.replicate n (0x31 : UInt8)).length - 1) else none) = some n
    simp
  unpack a b h := by
    show some (((a ++ b).take (UInt8.ofNat a.length).toNat), ((a ++ b).drop (UInt8.ofNat a.length).toNat)) = _
    rw [h, show (UInt8.ofNat 8).toNat = a.length by rw [h]; rfl, List.take_left, List.drop_left]
  quote s a b h := by
    replace h : s.flatMap escByte = a ++ 0x22 :: b := h
    induction s generalizing a with
    | nil => simp at h
    | cons c s ih =>
      rw [List.flatMap_cons] at h
      rcases List.append_eq_append_iff.mp h with ⟨u, hu, hv⟩ | ⟨u, hu, hv⟩
      · obtain ⟨a', ha'⟩ := ih u hv
        exact ⟨escByte c ++ a', by rw [hu, ha', List.append_assoc]⟩
      · cases u with
        | nil =>
          rw [List.nil_append] at hv
          obtain ⟨a', ha'⟩ := ih [] hv.symm
          simp at ha'
        | cons v u =>
          rw [List.cons_append] at hv
          obtain ⟨rfl, hv⟩ := List.cons.inj hv
          exact ⟨[], esc_quote c a u hu⟩
  oneLine s := by
    show _ ∉ s.flatMap escByte
    rw [List.mem_flatMap]
    rintro ⟨b, _, hb⟩
    exact esc_line b hb
  full k := by
    show (1 :: k).flatMap escByte ≠ []
    rw [List.flatMap_cons, show escByte 1 = [1] from rfl]
    simp
  object n := by
    refine ⟨List.replicate n 0x31, rfl, ?_, ?_⟩
    · intro h; exact absurd (List.eq_of_mem_replicate h) (by decide)
    · intro h
      exact absurd (List.eq_of_mem_replicate (h.subset (show (0x22 : UInt8) ∈ tag by decide))) (by decide)

/-- A wallet that comes back. -/
example : (gen plainCipher epee [1, 2, 3, 4, 5, 6, 7, 8] [9] ⟨some [5, 0x22, 6, 0x0a, 0x2c], 3⟩).1.bind (fun d => (load plainCipher epee [9] d).map
    fun w => (w.keyData, w.rest)) = some (some [5, 0x22, 6, 0x0a, 0x2c], 3) := by decide +kernel

/-- C69 is false of wallets whose serialised keys contain the bytes of a quote and a comma in a row: the comma ends the key data, and what is loaded is not
the wallet that was saved. The codec is the epee one, which meets every assumption. -/
theorem C69_false_comma : ∃ (x : Ciphers) (c : Codec Bytes ℕ) (k : Bytes) (j : ℕ) (data : Bytes), Involutive x ∧ c.Lawful ∧
    (gen x c [1, 2, 3, 4, 5, 6, 7, 8] [9] ⟨some k, j⟩).1 = some data ∧ (load x c [9] data).bind (fun w => w.keyData) ≠ some k := by
  refine ⟨plainCipher, epee, [5, 0x22, 0x2c, 6], 3, _, fun _ _ _ => rfl, epee_lawful, rfl, ?_⟩
  decide +kernel

/-- The text handed to the JSON string decoder is cut before every comma that follows a quote, whatever the codecs. -/
theorem C69_false_cut (a b r : Bytes) (h0 : a ≠ []) (hn : (0x0a : UInt8) ∉ a) (hi : ¬ [0x22, 0x2c] <:+: a) :
    lazyKey (a ++ (0x22 :: 0x2c :: b) ++ (0x22 :: 0x2c :: r)) = some (a, b ++ (0x22 :: 0x2c :: r)) := by
  rw [List.append_assoc, List.cons_append, List.cons_append]
  exact lazyKey_none a _ h0 hn hi

/-- C69 is false, further: generating the file removes the keys from the wallet object, so that generating it once more fails. -/
theorem C69_false_twice {K J : Type} (x : Ciphers) (c : Codec K J) (nonce nonce' password : Bytes) (w : Wallet K J) :
    (gen x c nonce' password (gen x c nonce password w).2).1 = none := by
  unfold gen
  cases h : w.keyData with
  | none => simp [h]
  | some k => rfl

end Verif.KeysFile
