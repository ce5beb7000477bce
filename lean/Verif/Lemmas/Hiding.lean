import Verif.Lemmas.Mlsag
import Verif.Props.Range
import Verif.Props.BpSound
import Verif.Spec.Hiding

/-! Each accepted signature comes from exactly one tape. -/

namespace Verif.Sig
open Verif Ed Key Edwards

/-! ## Scalars -/

theorem eq_of_smul_base {x y : ℤ} (hx : Reduced x) (hy : Reduced y) (h : x • base = y • base) : x = y := by
  have h0 : (x - y) • base = 0 := by rw [sub_zsmul, h, add_neg_cancel]
  have h1 : (lN : ℤ) ∣ x - y := by
    rw [← order_base]; exact addOrderOf_dvd_iff_zsmul_eq_zero.mpr h0
  have hl : (lN : ℤ) = l := by decide +kernel
  rw [hl] at h1
  obtain ⟨hx0, hx1⟩ := hx
  obtain ⟨hy0, hy1⟩ := hy
  generalize l = n at *
  exact Int.sub_eq_zero.mp (Int.eq_zero_of_abs_lt_dvd h1 (abs_lt.mpr ⟨by linarith, by linarith⟩))

theorem exists_log {p : Point} (h : lN • p = 0) : ∃ x, Reduced x ∧ p = x • base := by
  obtain ⟨c, hc⟩ := Bp.sub_cyclic ⟨p, h⟩
  refine ⟨(c.val : ℤ), ⟨by positivity, ?_⟩, ?_⟩
  · have := ZMod.val_lt c
    have hl : (lN : ℤ) = l := by decide +kernel
    rw [← hl]; exact_mod_cast this
  · have := congrArg Subtype.val hc
    rw [smul_sub] at this
    rw [natCast_zsmul]; exact this.symm

/-- The answer `al - c x` determines the nonce. -/
theorem nonce_eq {c x al be : ℤ} (ha : Reduced al) (hb : Reduced be) (h : scMulsub c x al = scMulsub c x be) : al = be := by
  unfold scMulsub at h
  have h1 : (al - c * x + c * x) % l = (be - c * x + c * x) % l := by
    rw [Int.add_emod, h, ← Int.add_emod]
  rw [sub_add_cancel, sub_add_cancel, Int.emod_eq_of_lt ha.1 ha.2, Int.emod_eq_of_lt hb.1 hb.2] at h1
  exact h1

/-- The nonce for a wanted answer. -/
def nonceOf (c x s : ℤ) : ℤ := (s + c * x) % l

theorem nonceOf_reduced (c x s : ℤ) : Reduced (nonceOf c x s) := emod_l_range _

theorem nonceOf_answer {c x s : ℤ} (hs : Reduced s) : scMulsub c x (nonceOf c x s) = s := by
  unfold scMulsub nonceOf
  rw [Int.emod_sub_emod, add_sub_cancel_right, Int.emod_eq_of_lt hs.1 hs.2]

/-! ## Rings -/

/-- The signer's loop follows a closed chain of challenges. -/
theorem ring_gen_chain {step : ℕ → ℤ → Option ℤ} {n idx : ℕ} (hi : idx < n) (hs : ∀ i c, i < n → (step i c).isSome) (a : ℕ → ℤ)
    (ha : ∀ i, i < n → i ≠ idx → step i (a i) = some (a (i + 1))) (hn : a n = a 0) :
    ringLoop step n idx n ((idx + 1) % n) (a (idx + 1)) (if (idx + 1) % n = 0 then a (idx + 1) else 0) = some (a idx, a 0) := by
  have hm : ∀ j, j < n → a ((j + 1) % n) = a (j + 1) := by
    intro j hj
    rcases Nat.lt_or_ge (j + 1) n with h | h
    · rw [Nat.mod_eq_of_lt h]
    · have : j + 1 = n := by omega
      rw [this, Nat.mod_self, hn]
  have hw : ∀ k, k ≤ n - 1 → walk (fun i c => (step i c).getD 0) n idx (a (idx + 1)) k = a ((idx + 1 + k) % n) := by
    intro k
    induction k with
    | zero => intro _; rw [walk, Nat.add_zero, hm idx hi]
    | succ k ih =>
      intro hk
      have hne : (idx + 1 + k) % n ≠ idx := by
        intro h
        rcases Nat.lt_or_ge (idx + 1 + k) n with hlt | hge
        · rw [Nat.mod_eq_of_lt hlt] at h; omega
        · rw [Nat.mod_eq_sub_mod hge, Nat.mod_eq_of_lt (by omega)] at h; omega
      have hlt := Nat.mod_lt (idx + 1 + k) (show n > 0 by omega)
      rw [walk, ih (by omega), ha _ hlt hne, Option.getD_some, ← hm _ hlt, Nat.mod_add_mod, Nat.add_assoc (idx + 1) k 1]
  rw [ring_gen (f := fun i c => (step i c).getD 0) hi (fun i c h _ => by
    obtain ⟨v, hv⟩ := Option.isSome_iff_exists.mp (hs i c h)
    rw [hv, Option.getD_some]) (a (idx + 1)), hw _ (le_refl _), hw _ (by omega)]
  rw [show idx + 1 + (n - 1) = idx + n by omega, Nat.add_mod_right, Nat.mod_eq_of_lt hi, show idx + 1 + (n - 1 - idx) = n by omega,
    Nat.mod_self]

/-- The verifier meets the signer's last challenge at the signer's position. -/
theorem ring_ver_at {ver : ℕ → ℤ → Option ℤ} {f : ℕ → ℤ → ℤ} {n idx : ℕ} (hi : idx < n) (c0 : ℤ)
    (hv : ∀ i c, i < idx → ver i c = some (f i c)) :
    chainLoop ver idx 0 (walk f n idx c0 (n - 1 - idx)) = some (walk f n idx c0 (n - 1)) := by
  have hc := chainLoop_of (step := ver) (fun j => walk f n idx c0 (n - 1 - idx + j)) idx 0 (by
    intro j hj
    simp only [Nat.zero_add]
    rw [← Nat.add_assoc (n - 1 - idx) j 1]
    conv_rhs => rw [walk]
    rw [show idx + 1 + (n - 1 - idx + j) = j + n by omega, Nat.add_mod_right, Nat.mod_eq_of_lt (by omega), hv _ _ hj])
  simp only [Nat.zero_add, Nat.add_zero] at hc
  rw [show n - 1 - idx + idx = n - 1 by omega] at hc
  exact hc

theorem closing_inj (c : ℤ) : ∀ (xs als bes : List ℤ), als.length = xs.length → bes.length = xs.length → (∀ a ∈ als, Reduced a) →
    (∀ a ∈ bes, Reduced a) → closing c xs als = closing c xs bes → als = bes
  | [], [], [], _, _, _, _, _ => rfl
  | x :: xs, a :: als, b :: bes, h1, h2, ha, hb, h => by
    simp only [closing, List.cons.injEq] at h
    rw [nonce_eq (ha a (by simp)) (hb b (by simp)) h.1, closing_inj c xs als bes (by simpa using h1) (by simpa using h2)
      (fun y hy => ha y (by simp [hy])) (fun y hy => hb y (by simp [hy])) h.2]

theorem closing_nonces (c : ℤ) : ∀ (xs ss : List ℤ), ss.length = xs.length → (∀ s ∈ ss, Reduced s) →
    closing c xs (List.zipWith (nonceOf c) xs ss) = ss
  | [], [], _, _ => by simp [closing]
  | x :: xs, s :: ss, h, hs => by
    simp only [List.zipWith_cons_cons, closing]
    rw [nonceOf_answer (hs s (by simp)), closing_nonces c xs ss (by simpa using h) (fun y hy => hs y (by simp [hy]))]

theorem secretDs_images (H : Bytes → Bytes) {ps : List Ext} {xs : List ℤ} (h : List.Forall₂ Opens ps xs) : ∀ (ps' : List Point), Reps ps ps' →
    ∀ als : List ℤ, als.length = xs.length → Reps (secretDs H ps xs als).2 (images H ps' xs) := by
  induction h with
  | nil => intro ps' hp als _; cases hp; rw [secretDs.eq_def]; exact .nil
  | @cons P x _ _ hP _ ih =>
    intro ps' hp als hl
    cases hp with
    | cons hP' hp =>
      cases als with
      | nil => simp at hl
      | cons al als =>
        refine .cons ?_ (ih _ hp als (by simpa using hl))
        have := rep_smul (hpt_rep H (encodePoint P)) hP.1
        rw [encodePoint_rep hP'] at this ⊢
        exact this

/-- Everything about a produced signature. -/
theorem gen_facts (H : Bytes → Bytes) (m : Bytes) {pk : List (List Ext)} {xx : List ℤ} {idx ds : ℕ} {tape : List (List ℤ)} {col : List Ext}
    (h2 : 2 ≤ pk.length) (hcol : pk[idx]? = some col) (hrows : 0 < xx.length) (hrect : ∀ col ∈ pk, col.length = xx.length)
    (hds : ds ≤ xx.length) (ht : RingTape pk.length xx.length tape) (hopen : List.Forall₂ Opens col xx) :
    ∃ mg c, genMlsag H m pk xx idx ds (tape.getD idx []) tape = some (mg, c) ∧ mg.ss = tape.set idx (closing c xx (tape.getD idx [])) ∧
      mg.II = (secretDs H (col.take ds) (xx.take ds) ((tape.getD idx []).take ds)).2 ∧
      chainLoop (colStep H m ds mg.II pk mg.ss) idx 0 mg.cc = some c := by
  have hidx : idx < pk.length := (List.getElem?_eq_some_iff.mp hcol).1
  obtain ⟨al, hal⟩ : ∃ al, tape.getD idx [] = al := ⟨_, rfl⟩
  rw [hal]
  obtain ⟨II, hII⟩ : ∃ II, (secretDs H (col.take ds) (xx.take ds) (al.take ds)).2 = II := ⟨_, rfl⟩
  obtain ⟨c0, hc0⟩ : ∃ c0, hs H (m ++ (secretDs H (col.take ds) (xx.take ds) (al.take ds)).1 ++ secretPlain (col.drop ds) (al.drop ds)) = c0 := ⟨_, rfl⟩
  have hget : ∀ (i : ℕ), i < pk.length → ∃ (col' : List Ext) (s : List ℤ), pk[i]? = some col' ∧ tape[i]? = some s := fun i hi =>
    ⟨_, _, List.getElem?_eq_getElem hi, List.getElem?_eq_getElem (ht.1 ▸ hi)⟩
  let f : ℕ → ℤ → ℤ := fun i c => (colStep H m ds II pk tape i c).getD 0
  have hf : ∀ i c, i < pk.length → colStep H m ds II pk tape i c = some (f i c) := by
    intro i c hi
    obtain ⟨col', s, e1, e2⟩ := hget i hi
    simp only [colStep, f, e1, e2, Option.getD_some]
  have hgen := ring_gen (gen := colStep H m ds II pk tape) (f := f) hidx (fun i c hi _ => hf i c hi) c0
  refine ⟨⟨tape.set idx (closing (walk f pk.length idx c0 (pk.length - 1)) xx al), walk f pk.length idx c0 (pk.length - 1 - idx), II⟩, _, ?_, rfl, hII.symm, ?_⟩
  · unfold genMlsag
    rw [mlsagAssert_some h2 hidx hrows hrect rfl hds]
    simp only [hcol, hII, hc0, hgen]
  · refine ring_ver_at hidx c0 ?_
    intro i c hi
    rw [← hf i c (by omega)]
    simp only [colStep]
    rw [List.getElem?_set_ne (by omega)]

theorem set_getD {α : Type} (l : List (List α)) (i : ℕ) (x : List α) (h : i < l.length) : (l.set i x).getD i [] = x := by
  rw [List.getD_eq_getElem?_getD, List.getElem?_set_self h]; rfl

theorem set_of_getD {α : Type} (l : List (List α)) (i : ℕ) : l.set i (l.getD i []) = l := by
  by_cases h : i < l.length
  · rw [List.getD_eq_getElem?_getD, List.getElem?_eq_getElem h, Option.getD_some, List.set_getElem_self]
  · rw [List.set_eq_of_length_le (by omega)]

theorem getD_tape {cols rows idx : ℕ} {t : List (List ℤ)} (ht : RingTape cols rows t) (h : idx < cols) :
    (t.getD idx []).length = rows ∧ ∀ x ∈ t.getD idx [], Reduced x := by
  have hi : idx < t.length := by rw [ht.1]; exact h
  have : t.getD idx [] ∈ t := by
    rw [List.getD_eq_getElem?_getD, List.getElem?_eq_getElem hi, Option.getD_some]; exact List.getElem_mem hi
  exact ht.2 _ this

theorem set_tape {cols rows idx : ℕ} {t : List (List ℤ)} (ht : RingTape cols rows t) {s : List ℤ} (h1 : s.length = rows)
    (h2 : ∀ x ∈ s, Reduced x) : RingTape cols rows (t.set idx s) := by
  refine ⟨by rw [List.length_set, ht.1], fun s' hs' => ?_⟩
  rcases List.mem_or_eq_of_mem_set hs' with h | h
  · exact ht.2 _ h
  · rw [h]; exact ⟨h1, h2⟩

theorem secretDs_snd (H : Bytes → Bytes) : ∀ (ps : List Ext) (xs as bs : List ℤ), as.length = xs.length → bs.length = xs.length →
    (secretDs H ps xs as).2 = (secretDs H ps xs bs).2
  | [], _, _, _, _, _ => by rw [secretDs.eq_def, secretDs.eq_def]
  | _ :: _, [], [], [], _, _ => rfl
  | _ :: ps, _ :: xs, _ :: as, _ :: bs, ha, hb => by
    simp only [secretDs, secretDs_snd H ps xs as bs (by simpa using ha) (by simpa using hb)]

/-- A tape is determined by the signature. -/
theorem gen_inj (H : Bytes → Bytes) (m : Bytes) {pk : List (List Ext)} {xx : List ℤ} {idx ds : ℕ} {t t' : List (List ℤ)} {col : List Ext}
    (h2 : 2 ≤ pk.length) (hcol : pk[idx]? = some col) (hrows : 0 < xx.length) (hrect : ∀ col ∈ pk, col.length = xx.length)
    (hds : ds ≤ xx.length) (ht : RingTape pk.length xx.length t) (ht' : RingTape pk.length xx.length t') (hopen : List.Forall₂ Opens col xx)
    {II II' : List Ext} {c c' cc : ℤ} {ss : List (List ℤ)} (e : genMlsag H m pk xx idx ds (t.getD idx []) t = some (⟨ss, cc, II⟩, c))
    (e' : genMlsag H m pk xx idx ds (t'.getD idx []) t' = some (⟨ss, cc, II'⟩, c')) : t = t' := by
  have hidx : idx < pk.length := (List.getElem?_eq_some_iff.mp hcol).1
  obtain ⟨mg, d, f1, f2, f3, f4⟩ := gen_facts H m h2 hcol hrows hrect hds ht hopen
  obtain ⟨mg', d', f1', f2', f3', f4'⟩ := gen_facts H m h2 hcol hrows hrect hds ht' hopen
  rw [f1, Option.some.injEq, Prod.mk.injEq] at e
  rw [f1', Option.some.injEq, Prod.mk.injEq] at e'
  obtain ⟨rfl, rfl⟩ := e
  obtain ⟨rfl, rfl⟩ := e'
  dsimp only at f2 f2' f3 f3' f4 f4'
  have hII : II = II' := by
    rw [f3, f3']
    exact secretDs_snd H _ _ _ _ (by rw [List.length_take, List.length_take, (getD_tape ht hidx).1])
      (by rw [List.length_take, List.length_take, (getD_tape ht' hidx).1])
  subst hII
  have hd : d = d' := Option.some.inj (f4.symm.trans f4')
  subst hd
  have hl : idx < t.length := by rw [ht.1]; exact hidx
  have hl' : idx < t'.length := by rw [ht'.1]; exact hidx
  have hset := f2.symm.trans f2'
  have hcl := congrArg (fun l => l.getD idx []) hset
  simp only [set_getD _ _ _ hl, set_getD _ _ _ hl'] at hcl
  have hal := closing_inj d xx _ _ (getD_tape ht hidx).1 (getD_tape ht' hidx).1 (getD_tape ht hidx).2 (getD_tape ht' hidx).2 hcl
  have := congrArg (fun l => l.set idx (t.getD idx [])) hset
  simp only [List.set_set] at this
  rw [set_of_getD] at this
  rw [this, hal, set_of_getD]

/-- A closed chain of challenges is met by the tape with the right nonces. -/
theorem gen_exists (H : Bytes → Bytes) (m : Bytes) {pk : List (List Ext)} {xx : List ℤ} {idx ds : ℕ} {ss : List (List ℤ)} {col : List Ext}
    (h2 : 2 ≤ pk.length) (hcol : pk[idx]? = some col) (hrows : 0 < xx.length) (hrect : ∀ col ∈ pk, col.length = xx.length)
    (hds : ds ≤ xx.length) (hss : RingTape pk.length xx.length ss) (hopen : List.Forall₂ Opens col xx) (a : ℕ → ℤ)
    (ha0 : ∀ i, i ≤ pk.length → 0 ≤ a i) (hn : a pk.length = a 0) (II : List Ext)
    (hII : ∀ als : List ℤ, als.length = xx.length → II = (secretDs H (col.take ds) (xx.take ds) (als.take ds)).2)
    (ha : ∀ i, i < pk.length → colStep H m ds II pk ss i (a i) = some (a (i + 1))) :
    ∃ t c, RingTape pk.length xx.length t ∧ genMlsag H m pk xx idx ds (t.getD idx []) t = some (⟨ss, a 0, II⟩, c) := by
  have hidx : idx < pk.length := (List.getElem?_eq_some_iff.mp hcol).1
  have hl : idx < ss.length := by rw [hss.1]; exact hidx
  obtain ⟨hs1, hs2⟩ := getD_tape hss hidx
  obtain ⟨al, hal⟩ : ∃ al, al = List.zipWith (nonceOf (a idx)) xx (ss.getD idx []) := ⟨_, rfl⟩
  have hall : al.length = xx.length := by rw [hal, List.length_zipWith, hs1, Nat.min_self]
  have hcl : closing (a idx) xx al = ss.getD idx [] := by rw [hal]; exact closing_nonces _ _ _ hs1 hs2
  have halr : ∀ x ∈ al, Reduced x := by
    intro x hx
    rw [hal] at hx
    obtain ⟨i, hi⟩ := List.mem_iff_getElem?.mp hx
    obtain ⟨hi', rfl⟩ := List.getElem?_eq_some_iff.mp hi
    rw [List.getElem_zipWith]
    exact nonceOf_reduced _ _ _
  have ht : RingTape pk.length xx.length (ss.set idx al) := set_tape hss hall halr
  refine ⟨ss.set idx al, a idx, ht, ?_⟩
  rw [set_getD _ _ _ hl]
  have hc0 : hs H (m ++ (secretDs H (col.take ds) (xx.take ds) (al.take ds)).1 ++ secretPlain (col.drop ds) (al.drop ds)) = a (idx + 1) := by
    have h := ha idx hidx
    have hg : ss[idx]? = some (ss.getD idx []) := by
      rw [List.getD_eq_getElem?_getD, List.getElem?_eq_getElem hl, Option.getD_some]
    rw [colStep, hcol, hg] at h
    simp only [Option.some.injEq] at h
    rw [← h, column, ← hcl, closing_take, closing_drop, hII al hall,
      secretDs_closes H (ha0 idx (by omega)) (List.forall₂_take ds hopen) _ (by simp [hall]) (fun x hx => (halr x (List.mem_of_mem_take hx)).1),
      secretPlain_closes (ha0 idx (by omega)) (List.forall₂_drop ds hopen) _ (by simp [hall])]
  have hring := ring_gen_chain (step := colStep H m ds II pk (ss.set idx al)) hidx (by
    intro i c hi
    have h1 : i < (ss.set idx al).length := by rw [ht.1]; exact hi
    rw [colStep, List.getElem?_eq_getElem hi, List.getElem?_eq_getElem h1]
    rfl) a (by
    intro i hi hne
    rw [← ha i hi, colStep, colStep, List.getElem?_set_ne (Ne.symm hne)]) hn
  unfold genMlsag
  rw [mlsagAssert_some h2 hidx hrows hrect rfl hds]
  simp only [hcol, ← hII al hall, hc0, hring, hcl]
  rw [List.set_set, set_of_getD]

/-! ## Borromean -/

theorem masks_none : ∀ (xs : List ℤ) (a : ℤ), (masks none xs a).1 = xs
  | [], _ => rfl
  | x :: xs, a => by rw [masks]; simp only [pickMask, masks_none xs]

/-- The tape of one bit for a wanted commitment and wanted answers. -/
theorem bit_exists (H : Bytes → Bytes) {P : Ext} {h p : Point} (hP : Rep P h) (hh : lN • h = 0) (hp : lN • p = 0) {b : ℕ} (hb : b ≤ 1)
    {s0 s1 ee : ℤ} (h0 : Reduced s0) (h1 : Reduced s1) (hee : 0 ≤ ee) :
    ∃ t : BitTape, (Reduced t.1 ∧ Reduced t.2.1 ∧ Reduced t.2.2) ∧ Rep (bitCommit t.1 b P) p ∧
      boroSecond H ee t.1 (bitCommit t.1 b P) b t.rnd = (s0, s1) ∧
      boroFirst H (sub (bitCommit t.1 b P) P) b t.rnd = encPt (s1 • base + hs H (encPt (s0 • base + ee • p)) • (p - h)) := by
  rcases Nat.le_one_iff_eq_zero_or_eq_one.mp hb with rfl | rfl
  · obtain ⟨x, hx, e⟩ := exists_log hp
    refine ⟨(x, nonceOf x ee s0, s1), ⟨hx, nonceOf_reduced _ _ _, h1⟩, ?_, ?_, ?_⟩
    · rw [bitCommit, if_pos rfl, e]; exact rep_B x
    · rw [boroSecond, if_pos rfl]
      exact congrArg (·, s1) (nonceOf_answer h0)
    · rw [boroFirst, if_pos rfl, bitCommit, if_pos rfl]
      dsimp only [BitTape.rnd]
      have e2 : s0 • base + ee • p = nonceOf x ee s0 • base := by
        rw [e, ← closing_eq' l_base ee x (nonceOf x ee s0), nonceOf_answer h0]
      rw [encodePoint_rep (rep_addKeys2 (rep_sub (rep_B x) hP) _ (hs_range _ _).1), encodePoint_rep (rep_B _), e2, e]
  · have hp' : lN • (p - h) = 0 := by rw [nsmul_sub, hp, hh, sub_zero]
    obtain ⟨x, hx, e⟩ := exists_log hp'
    have ep : x • base + h = p := by rw [← e, sub_add_cancel]
    refine ⟨(x, nonceOf x (hs H (encPt (s0 • base + ee • p))) s1, s0), ⟨hx, nonceOf_reduced _ _ _, h0⟩, ?_, ?_, ?_⟩
    · rw [bitCommit, if_neg (by omega), ← ep]; exact rep_add (rep_B x) hP
    · rw [boroSecond, if_neg (by omega), bitCommit, if_neg (by omega)]
      dsimp only [BitTape.rnd]
      rw [encodePoint_rep (rep_addKeys2 (rep_add (rep_B x) hP) _ hee), ep, nonceOf_answer h1]
    · rw [boroFirst, if_neg (by omega)]
      dsimp only [BitTape.rnd]
      rw [encodePoint_rep (rep_B _), e, ← closing_eq' l_base (hs H (encPt (s0 • base + ee • p))) x, nonceOf_answer h1]

/-- And there is only one. -/
theorem bit_unique (H : Bytes → Bytes) {P : Ext} {h p : Point} (hP : Rep P h) {b : ℕ} (hb : b ≤ 1) {ee : ℤ} {t u : BitTape}
    (ht : Reduced t.1 ∧ Reduced t.2.1 ∧ Reduced t.2.2) (hu : Reduced u.1 ∧ Reduced u.2.1 ∧ Reduced u.2.2) (rt : Rep (bitCommit t.1 b P) p)
    (ru : Rep (bitCommit u.1 b P) p)
    (e : boroSecond H ee t.1 (bitCommit t.1 b P) b t.rnd = boroSecond H ee u.1 (bitCommit u.1 b P) b u.rnd) : t = u := by
  obtain ⟨t1, t2, t3⟩ := t
  obtain ⟨u1, u2, u3⟩ := u
  dsimp only at *
  have h1 : t1 = u1 := by
    rcases Nat.le_one_iff_eq_zero_or_eq_one.mp hb with rfl | rfl
    · rw [bitCommit, if_pos rfl] at rt ru
      exact eq_of_smul_base ht.1 hu.1 ((rep_unique (rep_B t1) rt).trans (rep_unique (rep_B u1) ru).symm)
    · rw [bitCommit, if_neg (by omega)] at rt ru
      exact eq_of_smul_base ht.1 hu.1
        (add_right_cancel ((rep_unique (rep_add (rep_B t1) hP) rt).trans (rep_unique (rep_add (rep_B u1) hP) ru).symm))
  subst h1
  rcases Nat.le_one_iff_eq_zero_or_eq_one.mp hb with rfl | rfl
  · rw [boroSecond, boroSecond, if_pos rfl, if_pos rfl, Prod.mk.injEq] at e
    dsimp only [BitTape.rnd] at e
    rw [nonce_eq ht.2.1 hu.2.1 e.1, e.2]
  · rw [boroSecond, boroSecond, if_neg (by omega), if_neg (by omega), Prod.mk.injEq] at e
    dsimp only [BitTape.rnd] at e
    obtain ⟨e1, e2⟩ := e
    subst e1
    rw [nonce_eq ht.2.1 hu.2.1 e2]

def BitOkTape (t : BitTape) : Prop := Reduced t.1 ∧ Reduced t.2.1 ∧ Reduced t.2.2

theorem bits_exists (H : Bytes → Bytes) {ee : ℤ} (hee : 0 ≤ ee) (n : ℕ) : ∀ (P : Ext) (h : Point) (bs : List ℕ) (cs : List Point) (s0 s1 : List ℤ),
    Rep P h → lN • h = 0 → bs.length = n → cs.length = n → s0.length = n → s1.length = n → (∀ b ∈ bs, b ≤ 1) → (∀ c ∈ cs, lN • c = 0) →
    (∀ s ∈ s0, Reduced s) → (∀ s ∈ s1, Reduced s) →
    ∃ t : List BitTape, t.length = n ∧ (∀ x ∈ t, BitOkTape x) ∧
      Reps ((bitIns (t.map (·.1)) bs (hPow n P) (t.map BitTape.rnd)).map (·.P1)) cs ∧
      (bitIns (t.map (·.1)) bs (hPow n P) (t.map BitTape.rnd)).map (fun b => boroSecond H ee b.x b.P1 b.bit b.rnd) = s0.zip s1 ∧
      ((bitIns (t.map (·.1)) bs (hPow n P) (t.map BitTape.rnd)).map fun b => boroFirst H b.P2 b.bit b.rnd).flatten =
        boroData H ee (cs.zip (diffs cs h)) s0 s1 := by
  induction n with
  | zero =>
    intro P h bs cs s0 s1 _ _ _ hc _ _ _ _ _ _
    obtain rfl := List.length_eq_zero_iff.mp hc
    have : s0 = [] := List.length_eq_zero_iff.mp ‹_›
    subst this
    exact ⟨[], rfl, by simp, by simp [bitIns], by simp [bitIns], by simp [bitIns, boroData]⟩
  | succ n ih =>
    intro P h bs cs s0 s1 hP hh l1 l2 l3 l4 hb hc h0 h1
    obtain ⟨b, bs, rfl, g1⟩ := length_succ l1
    obtain ⟨c, cs, rfl, g2⟩ := length_succ l2
    obtain ⟨x, s0, rfl, g3⟩ := length_succ l3
    obtain ⟨y, s1, rfl, g4⟩ := length_succ l4
    obtain ⟨t, t1, t2, t3, t4, t5⟩ := ih (add P P) (h + h) bs cs s0 s1 (rep_add hP hP) (by rw [smul_add, hh, add_zero]) g1 g2 g3 g4
      (fun z hz => hb z (by simp [hz])) (fun z hz => hc z (by simp [hz])) (fun z hz => h0 z (by simp [hz])) (fun z hz => h1 z (by simp [hz]))
    obtain ⟨u, u1, u2, u3, u4⟩ := bit_exists H hP hh (hc c (by simp)) (hb b (by simp)) (h0 x (by simp)) (h1 y (by simp)) hee
    refine ⟨u :: t, by simp [t1], ?_, ?_, ?_, ?_⟩
    · intro z hz
      simp only [List.mem_cons] at hz
      rcases hz with rfl | hz
      · exact u1
      · exact t2 z hz
    · rw [List.map_cons, List.map_cons, hPow, bitIns, List.map_cons]
      exact .cons u2 t3
    · rw [List.map_cons, List.map_cons, hPow, bitIns, List.map_cons, t4, u3, List.zip_cons_cons]
    · rw [List.map_cons, List.map_cons, hPow, bitIns, List.map_cons, List.flatten_cons, t5, u4, diffs, List.zip_cons_cons, boroData]

theorem bits_unique (H : Bytes → Bytes) {ee : ℤ} (n : ℕ) : ∀ (P : Ext) (h : Point) (bs : List ℕ) (cs : List Point) (t u : List BitTape),
    Rep P h → bs.length = n → t.length = n → u.length = n → (∀ b ∈ bs, b ≤ 1) → (∀ x ∈ t, BitOkTape x) → (∀ x ∈ u, BitOkTape x) →
    Reps ((bitIns (t.map (·.1)) bs (hPow n P) (t.map BitTape.rnd)).map (·.P1)) cs →
    Reps ((bitIns (u.map (·.1)) bs (hPow n P) (u.map BitTape.rnd)).map (·.P1)) cs →
    (bitIns (t.map (·.1)) bs (hPow n P) (t.map BitTape.rnd)).map (fun b => boroSecond H ee b.x b.P1 b.bit b.rnd) =
      (bitIns (u.map (·.1)) bs (hPow n P) (u.map BitTape.rnd)).map (fun b => boroSecond H ee b.x b.P1 b.bit b.rnd) → t = u := by
  induction n with
  | zero =>
    intro P h bs cs t u _ _ ht hu _ _ _ _ _ _
    rw [List.length_eq_zero_iff.mp ht, List.length_eq_zero_iff.mp hu]
  | succ n ih =>
    intro P h bs cs t u hP l1 l2 l3 hb ht hu rt ru e
    obtain ⟨b, bs, rfl, g1⟩ := length_succ l1
    obtain ⟨a, t, rfl, g2⟩ := length_succ l2
    obtain ⟨d, u, rfl, g3⟩ := length_succ l3
    rw [List.map_cons, List.map_cons, hPow, bitIns, List.map_cons] at rt ru
    rw [List.map_cons, List.map_cons, hPow, bitIns, List.map_cons, List.map_cons, List.map_cons, bitIns, List.map_cons, List.cons.injEq] at e
    cases rt with
    | cons r1 rt =>
      cases ru with
      | cons r2 ru =>
        rw [bit_unique H hP (hb b (by simp)) (ht a (by simp)) (hu d (by simp)) r1 r2 e.1,
          ih (add P P) (h + h) bs _ t u (rep_add hP hP) g1 g2 g3 (fun z hz => hb z (by simp [hz])) (fun z hz => ht z (by simp [hz]))
            (fun z hz => hu z (by simp [hz])) rt ru e.2]

theorem bitOk_mk {x : ℤ} {P1 P2 : Ext} {b : ℕ} {r : BitRnd} {p1 p2 : Point} (r1 : Rep P1 p1) (r2 : Rep P2 p2) (h0 : b = 0 → p1 = x • base)
    (h1 : b ≠ 0 → p2 = x • base) : BitOk ⟨x, P1, P2, b, r⟩ p1 p2 := ⟨r1, r2, h0, h1⟩

theorem bits_facts (H : Bytes → Bytes) {ee : ℤ} (hee : 0 ≤ ee) (n : ℕ) : ∀ (P : Ext) (h : Point) (bs : List ℕ) (t : List BitTape),
    Rep P h → lN • h = 0 → bs.length = n → t.length = n → (∀ b ∈ bs, b ≤ 1) → (∀ x ∈ t, BitOkTape x) →
    ∃ (cs : List Point) (s0 s1 : List ℤ), cs.length = n ∧ s0.length = n ∧ s1.length = n ∧ (∀ c ∈ cs, lN • c = 0) ∧ (∀ s ∈ s0, Reduced s) ∧
      (∀ s ∈ s1, Reduced s) ∧ Reps ((bitIns (t.map (·.1)) bs (hPow n P) (t.map BitTape.rnd)).map (·.P1)) cs ∧
      (bitIns (t.map (·.1)) bs (hPow n P) (t.map BitTape.rnd)).map (fun b => boroSecond H ee b.x b.P1 b.bit b.rnd) = s0.zip s1 ∧
      ((bitIns (t.map (·.1)) bs (hPow n P) (t.map BitTape.rnd)).map fun b => boroFirst H b.P2 b.bit b.rnd).flatten =
        boroData H ee (cs.zip (diffs cs h)) s0 s1 := by
  induction n with
  | zero =>
    intro P h bs t _ _ _ _ _ _
    exact ⟨[], [], [], rfl, rfl, rfl, by simp, by simp, by simp, by simp [bitIns, hPow], by simp [bitIns, hPow], by simp [bitIns, boroData, hPow]⟩
  | succ n ih =>
    intro P h bs t hP hh l1 l2 hb ht
    obtain ⟨b, bs, rfl, g1⟩ := length_succ l1
    obtain ⟨a, t, rfl, g2⟩ := length_succ l2
    obtain ⟨cs, s0, s1, c1, c2, c3, c4, c5, c6, c7, c8, c9⟩ := ih (add P P) (h + h) bs t (rep_add hP hP) (by rw [smul_add, hh, add_zero]) g1 g2
      (fun z hz => hb z (by simp [hz])) (fun z hz => ht z (by simp [hz]))
    obtain ⟨a1, a2, a3⟩ := ht a (by simp)
    have hb1 := hb b (by simp)
    obtain ⟨c, hc, hc0, hok⟩ : ∃ c, Rep (bitCommit a.1 b P) c ∧ lN • c = 0 ∧
        BitOk ⟨a.1, bitCommit a.1 b P, sub (bitCommit a.1 b P) P, b, a.rnd⟩ c (c - h) := by
      have hB : lN • (a.1 • base) = 0 := by rw [smul_comm, l_base, smul_zero]
      rcases Nat.le_one_iff_eq_zero_or_eq_one.mp hb1 with rfl | rfl
      · have hr : Rep (bitCommit a.1 0 P) (a.1 • base) := by rw [bitCommit, if_pos rfl]; exact rep_B _
        exact ⟨a.1 • base, hr, hB, bitOk_mk hr (rep_sub hr hP) (fun _ => Eq.refl _) (fun h0 => absurd rfl h0)⟩
      · have hr : Rep (bitCommit a.1 1 P) (a.1 • base + h) := by rw [bitCommit, if_neg (by omega)]; exact rep_add (rep_B _) hP
        exact ⟨a.1 • base + h, hr, by rw [smul_add, hB, hh, add_zero], bitOk_mk hr (rep_sub hr hP) (fun h0 => absurd h0 one_ne_zero)
          (fun _ => by rw [add_sub_cancel_right])⟩
    obtain ⟨⟨x, y⟩, hxy⟩ : ∃ z, boroSecond H ee a.1 (bitCommit a.1 b P) b a.rnd = z := ⟨_, rfl⟩
    have hrange : Reduced x ∧ Reduced y := by
      unfold boroSecond at hxy
      split at hxy
      · rw [Prod.mk.injEq] at hxy
        rw [← hxy.1, ← hxy.2]
        exact ⟨emod_l_range _, a3⟩
      · dsimp only at hxy
        rw [Prod.mk.injEq] at hxy
        rw [← hxy.1, ← hxy.2]
        exact ⟨a3, emod_l_range _⟩
    have hfirst := boro_bit H hok hee
    dsimp only at hfirst
    rw [hxy] at hfirst
    dsimp only at hfirst
    rw [encodePoint_rep (rep_addKeys2 (rep_sub hc hP) _ (hs_range _ _).1), encodePoint_rep (rep_addKeys2 hc _ hee)] at hfirst
    refine ⟨c :: cs, x :: s0, y :: s1, by simp [c1], by simp [c2], by simp [c3], ?_, ?_, ?_, ?_, ?_, ?_⟩
    · intro z hz
      rcases List.mem_cons.mp hz with rfl | hz
      · exact hc0
      · exact c4 z hz
    · intro z hz
      rcases List.mem_cons.mp hz with rfl | hz
      · exact hrange.1
      · exact c5 z hz
    · intro z hz
      rcases List.mem_cons.mp hz with rfl | hz
      · exact hrange.2
      · exact c6 z hz
    · rw [List.map_cons, List.map_cons, hPow, bitIns, List.map_cons]
      exact .cons hc c7
    · rw [List.map_cons, List.map_cons, hPow, bitIns, List.map_cons, c8, hxy, List.zip_cons_cons]
    · rw [List.map_cons, List.map_cons, hPow, bitIns, List.map_cons, List.flatten_cons, c9, ← hfirst, diffs, List.zip_cons_cons, boroData]

theorem map_fst_rnd (t : List BitTape) : (t.map BitTape.rnd).map (·.ai) = t.map (·.1) := by
  rw [List.map_map]; rfl

theorem sum_rep {Cs : List Ext} {cs : List Point} (h : Reps Cs cs) : ∀ {A : Ext} {a : Point}, Rep A a → Rep (Cs.foldl add A) (a + cs.sum) := by
  induction h with
  | nil => intro A a ha; simpa using ha
  | cons hC _ ih =>
    intro A a ha
    rw [List.foldl_cons, List.sum_cons, ← add_assoc]
    exact ih (rep_add ha hC)

theorem pairs_ext {α β : Type} : ∀ {l l' : List (α × β)}, l.map (·.1) = l'.map (·.1) → l.map (·.2) = l'.map (·.2) → l = l'
  | [], [], _, _ => rfl
  | [], _ :: _, h, _ => by simp at h
  | _ :: _, [], h, _ => by simp at h
  | (a, b) :: l, (c, d) :: l', h, h' => by
    simp only [List.map_cons, List.cons.injEq] at h h'
    rw [h.1, h'.1, pairs_ext h.2 h'.2]

theorem unzip_out {s0 s1 : List ℤ} (h : s0.length = s1.length) : (s0.zip s1).map (·.1) = s0 ∧ (s0.zip s1).map (·.2) = s1 :=
  ⟨List.map_fst_zip (by omega), List.map_snd_zip (by omega)⟩

/-- For every amount there is a tape that leads to given commitments and answers. -/
theorem range_exists (H : Bytes → Bytes) {v : ℕ} (hv : v < 2 ^ 64) {cs : List Point} {s0 s1 : List ℤ} {ee : ℤ} (hc : cs.length = 64)
    (l0 : s0.length = 64) (l1 : s1.length = 64) (hc0 : ∀ c ∈ cs, lN • c = 0) (h0 : ∀ s ∈ s0, Reduced s) (h1 : ∀ s ∈ s1, Reduced s)
    (hee : ee = hs H (boroData H ee (cs.zip (diffs cs hBase)) s0 s1)) :
    ∃ t C a r, RangeTape t ∧ proveRangeOrig H v none (t.map BitTape.rnd) = some (C, a, r) ∧ r.asig = ⟨s0, s1, ee⟩ ∧ Reps r.Ci cs ∧
      Rep C cs.sum := by
  obtain ⟨bb, hd, hb, -, hb1⟩ := d2bLoop_some 64 v hv
  have he0 : 0 ≤ ee := by rw [hee]; exact (hs_range _ _).1
  obtain ⟨t, t1, t2, t3, t4, t5⟩ := bits_exists H he0 64 hPt hBase bb cs s0 s1 rep_hBase l_hBase hb hc l0 l1 hb1 hc0 h0 h1
  refine ⟨t, _, _, _, ⟨t1, t2⟩, by unfold proveRangeOrig d2b; rw [hd], ?_, ?_, ?_⟩
  · dsimp only
    rw [map_fst_rnd, masks_none, genBorromean]
    rw [t5, ← hee, t4, (unzip_out (l0.trans l1.symm)).1, (unzip_out (l0.trans l1.symm)).2]
  · rw [map_fst_rnd, masks_none]
    exact t3
  · rw [map_fst_rnd, masks_none]
    have := sum_rep t3 rep_ident
    rwa [zero_add] at this

/-- And only one. -/
theorem range_unique (H : Bytes → Bytes) {v : ℕ} (hv : v < 2 ^ 64) {cs : List Point} {t u : List BitTape} (ht : RangeTape t) (hu : RangeTape u)
    {C C' : Ext} {a a' : ℤ} {r r' : RangeSig} (e : proveRangeOrig H v none (t.map BitTape.rnd) = some (C, a, r))
    (e' : proveRangeOrig H v none (u.map BitTape.rnd) = some (C', a', r')) (hr : Reps r.Ci cs) (hr' : Reps r'.Ci cs) (hs : r.asig = r'.asig) :
    t = u := by
  obtain ⟨bb, hd, hb, -, hb1⟩ := d2bLoop_some 64 v hv
  unfold proveRangeOrig d2b at e e'
  rw [hd] at e e'
  dsimp only at e e'
  rw [map_fst_rnd, masks_none, Option.some.injEq, Prod.mk.injEq, Prod.mk.injEq] at e e'
  obtain ⟨-, -, rfl⟩ := e
  obtain ⟨-, -, rfl⟩ := e'
  dsimp only at hr hr' hs
  unfold genBorromean at hs
  dsimp only at hs
  rw [BoroSig.mk.injEq] at hs
  obtain ⟨q1, q2, q3⟩ := hs
  rw [← q3] at q1 q2
  exact bits_unique H 64 hPt hBase bb cs t u rep_hBase hb ht.1 hu.1 hb1 ht.2 hu.2 hr hr' (pairs_ext q1 q2)

theorem prove_facts (H : Bytes → Bytes) {v : ℕ} (hv : v < 2 ^ 64) {t : List BitTape} (ht : RangeTape t) :
    ∃ C a r cs, proveRangeOrig H v none (t.map BitTape.rnd) = some (C, a, r) ∧ Reps r.Ci cs ∧ Rep C cs.sum ∧ cs.length = 64 ∧
      (∀ c ∈ cs, lN • c = 0) ∧ r.asig.s0.length = 64 ∧ r.asig.s1.length = 64 ∧ (∀ s ∈ r.asig.s0, Reduced s) ∧ (∀ s ∈ r.asig.s1, Reduced s) ∧
      r.asig.ee = hs H (boroData H r.asig.ee (cs.zip (diffs cs hBase)) r.asig.s0 r.asig.s1) := by
  obtain ⟨bb, hd, hb, -, hb1⟩ := d2bLoop_some 64 v hv
  obtain ⟨ee, hee⟩ : ∃ ee, hs H ((bitIns (t.map (·.1)) bb (hPow 64 hPt) (t.map BitTape.rnd)).map fun b => boroFirst H b.P2 b.bit b.rnd).flatten = ee :=
    ⟨_, rfl⟩
  have he0 : 0 ≤ ee := by rw [← hee]; exact (hs_range _ _).1
  obtain ⟨cs, s0, s1, c1, c2, c3, c4, c5, c6, c7, c8, c9⟩ := bits_facts H he0 64 hPt hBase bb t rep_hBase l_hBase hb ht.1 hb1 ht.2
  have hg : genBorromean H (bitIns (t.map (·.1)) bb (hPow 64 hPt) (t.map BitTape.rnd)) = ⟨s0, s1, ee⟩ := by
    unfold genBorromean
    dsimp only
    rw [hee, c8, (unzip_out (c2.trans c3.symm)).1, (unzip_out (c2.trans c3.symm)).2]
  have hsum := sum_rep c7 rep_ident
  rw [zero_add] at hsum
  refine ⟨_, _, ⟨⟨s0, s1, ee⟩, _⟩, cs, by unfold proveRangeOrig d2b; rw [hd]; dsimp only; rw [map_fst_rnd, masks_none, hg], c7, hsum, c1, c4, c2,
    c3, c5, c6, ?_⟩
  dsimp only
  rw [← c9, hee]

end Verif.Sig
