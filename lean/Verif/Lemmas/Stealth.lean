import Verif.Lemmas.Key
import Verif.Spec.Keys

/-! Sending to and receiving at one-time addresses. -/

namespace Verif.Key
open Verif Ed Edwards

theorem subSpend_rep {H : Bytes → Bytes} {a : ℤ} {S D : Ext} {s : Point} (hS : Rep S s) {i j : ℕ}
    (h : subSpendPub H a S i j = some D) : ∃ d, Rep D d := by
  unfold subSpendPub at h
  split at h
  · cases h; exact ⟨_, hS⟩
  · obtain ⟨m, -, rfl⟩ := Option.map_eq_some_iff.mp h
    exact ⟨_, rep_add hS (rep_B m)⟩

theorem subKeys_eq {H : Bytes → Bytes} {a : ℤ} (ha : 0 ≤ a) {S D C : Ext} {s : Point} (hS : Rep S s) {i j : ℕ}
    (h : subAddressKeys H a S i j = some (D, C)) : subSpendPub H a S i j = some D ∧
      ∃ d : Point, Rep D d ∧ (if i = 0 ∧ j = 0 then Rep C (a • base) else Rep C (a • d)) := by
  unfold subAddressKeys at h
  unfold subSpendPub
  split at h
  · rename_i h0
    obtain ⟨rfl, rfl⟩ : S = D ∧ scalarmultB a = C := by simpa using h
    exact ⟨by rw [if_pos h0], s, hS, by rw [if_pos h0]; exact rep_B a⟩
  · rename_i h0
    obtain ⟨m, hm, he⟩ := Option.map_eq_some_iff.mp h
    obtain ⟨rfl, rfl⟩ : add S (scalarmultB m) = D ∧ smul (add S (scalarmultB m)) a = C := by simpa using he
    exact ⟨by rw [if_neg h0, hm]; rfl, _, rep_add hS (rep_B m), by rw [if_neg h0]; exact rep_smul (rep_add hS (rep_B m)) ha⟩

theorem precomp_complete {H : Bytes → Bytes} {a b : ℤ} (h0 : 0 < b) (h1 : b < l) {out dv D : Ext} {po δ d : Point} (ho : Rep out po)
    (hd : Rep dv δ) {n : ℕ} {idx : ℕ × ℕ} (hD : subSpendPub H a (scalarmultB b) idx.1 idx.2 = some D) (hDr : Rep D d)
    (he : po = d + sh H δ n • base) :
    ∃ x I, kiHelperPrecomp H a b out dv n idx = some (x, I) := by
  have hb : b ≠ 0 := ne_of_gt h0
  have hs1 : deriveSecretKey H dv n b = some (scAdd b (sh H δ n)) := by
    simp [deriveSecretKey, scCheck_eq h0 h1, toScalar_rep H hd]
  obtain ⟨s2, h2, hr⟩ : ∃ s2, (if idx = (0, 0) then some (scAdd b (sh H δ n)) else
      (subSecret H a idx.1 idx.2).map fun m => scAdd (scAdd b (sh H δ n)) m) = some s2 ∧ s2 • base = po := by
    unfold subSpendPub at hD
    by_cases hi : idx = (0, 0)
    · subst hi
      rw [if_pos ⟨rfl, rfl⟩] at hD
      cases hD
      refine ⟨_, by rw [if_pos rfl], ?_⟩
      rw [he, rep_unique hDr (rep_B b), scAdd, mod_smul l_base, add_smul]
    · have hi' : ¬(idx.1 = 0 ∧ idx.2 = 0) := fun h => hi (Prod.ext h.1 h.2)
      rw [if_neg hi'] at hD
      obtain ⟨m, hm, rfl⟩ := Option.map_eq_some_iff.mp hD
      refine ⟨_, by rw [if_neg hi, hm]; rfl, ?_⟩
      rw [he, rep_unique hDr (rep_add (rep_B b) (rep_B m))]
      simp only [scAdd]
      rw [mod_smul l_base, add_smul, mod_smul l_base, add_smul]
      abel
  have hp : pointEq (scalarmultB s2) out = some true := by
    rw [pointEq, if_pos (show isOnCurve _ = true from rep_on (rep_B s2)), (pointEqual_iff (rep_B s2) ho).mpr hr]
  refine ⟨s2, keyImage H (encodePoint (scalarmultB s2)) s2, ?_⟩
  rw [kiHelperPrecomp, if_neg hb, hs1]
  dsimp only
  rw [h2]
  dsimp only
  rw [hp]

theorem precomp_sound {H : Bytes → Bytes} {a b : ℤ} {out dv : Ext} {po : Point} (ho : Rep out po) {n : ℕ} {idx : ℕ × ℕ} {x : ℤ} {I : Ext}
    (h : kiHelperPrecomp H a b out dv n idx = some (x, I)) :
    (0 ≤ x ∧ x < l) ∧ x • base = po ∧ I = smul (hp H (encPt po)) x ∧ b ≠ 0 := by
  unfold kiHelperPrecomp at h
  split at h
  · simp at h
  rename_i hb
  split at h
  · simp at h
  rename_i s1 hs1
  split at h
  · simp at h
  rename_i s2 hs2
  dsimp only at h
  split at h
  · simp at h
  · simp at h
  rename_i hp
  obtain ⟨rfl, rfl⟩ : s2 = x ∧ keyImage H (encodePoint (scalarmultB s2)) s2 = I := by simpa using h
  have hpt : s2 • base = po := by
    rw [pointEq, if_pos (show isOnCurve _ = true from rep_on (rep_B s2))] at hp
    exact (pointEqual_iff (rep_B s2) ho).mp (by simpa using hp)
  refine ⟨?_, hpt, by rw [keyImage, encodePoint_rep (rep_B s2), hpt], hb⟩
  split at hs2
  · cases hs2
    unfold deriveSecretKey at hs1
    split at hs1
    · simp at hs1
    · obtain ⟨v, -, rfl⟩ := Option.map_eq_some_iff.mp hs1
      exact emod_l_range _
  · obtain ⟨m, -, rfl⟩ := Option.map_eq_some_iff.mp hs2
    exact emod_l_range _

theorem derivations_rep {a : ℤ} (h0 : 0 < a) (h1 : a < l) (Rs : List Ext) (h : ∀ R ∈ Rs, ∃ p, Rep R p) :
    ∃ ds, derivations a Rs = some ds ∧ ds.length = Rs.length ∧
      ∀ (n : ℕ) (R : Ext) (p : Point), Rs[n]? = some R → Rep R p → ∃ D, ds[n]? = some D ∧ Rep D ((8 : ℤ) • a • p) := by
  induction Rs with
  | nil => exact ⟨[], rfl, rfl, by simp⟩
  | cons R Rs ih =>
    obtain ⟨ds, hd, hl, hn⟩ := ih fun R hR => h R (List.mem_cons_of_mem _ hR)
    obtain ⟨p, hp⟩ := h R (List.mem_cons_self)
    obtain ⟨D, hD, hDr⟩ := keyDerivation_rep hp h0 h1
    refine ⟨D :: ds, by rw [derivations, hD, hd], by simp [hl], ?_⟩
    intro n R' p' hR' hp'
    cases n with
    | zero =>
      obtain rfl : R = R' := by simpa using hR'
      rw [rep_unique hp' hp]
      exact ⟨D, rfl, hDr⟩
    | succ n => exact hn n R' p' (by simpa using hR') hp'

/-- Completeness of the search and the key image computation. -/
theorem kiHelper_complete {H : Bytes → Bytes} {a b : ℤ} (ha0 : 0 < a) (ha1 : a < l) (hb0 : 0 < b) (hb1 : b < l) {t : Table}
    (ht : t.Valid H a (scalarmultB b)) {out txPub : Ext} {po pr : Point} (ho : Rep out po) (hr : Rep txPub pr) {Rs : List Ext}
    (hRs : ∀ R ∈ Rs, ∃ p, Rep R p) {n : ℕ} (hlen : Rs.length > 0 → n < Rs.length)
    (h : t.get (encPt (po - sh H ((8 : ℤ) • a • pr) n • base)) ≠ none ∨
      ∃ (R : Ext) (p : Point), Rs[n]? = some R ∧ Rep R p ∧ t.get (encPt (po - sh H ((8 : ℤ) • a • p) n • base)) ≠ none) :
    ∃ (recv : Ext) (ds : List Ext) (idx : ℕ × ℕ) (dv : Ext) (δ d : Point) (D : Ext) (x : ℤ) (I : Ext), keyDerivation txPub a = some recv ∧
      derivations a Rs = some ds ∧ isOutToAcc H t out recv ds n = some (some (idx, dv)) ∧ Rep dv δ ∧
      subSpendPub H a (scalarmultB b) idx.1 idx.2 = some D ∧ Rep D d ∧ po = d + sh H δ n • base ∧
      kiHelper H a b t out txPub Rs n = some (x, I, recv) := by
  obtain ⟨recv, hk, hkr⟩ := keyDerivation_rep hr ha0 ha1
  obtain ⟨ds, hds, hdl, hdn⟩ := derivations_rep ha0 ha1 Rs hRs
  obtain ⟨K, hK, hKr⟩ := deriveSub_rep H hkr n ho
  suffices hs : ∃ (idx : ℕ × ℕ) (dv : Ext) (δ : Point), isOutToAcc H t out recv ds n = some (some (idx, dv)) ∧ Rep dv δ ∧
      t.get (encPt (po - sh H δ n • base)) = some idx by
    obtain ⟨idx, dv, δ, hi, hδ, hg⟩ := hs
    obtain ⟨D, hD, hDe⟩ := ht _ _ hg
    obtain ⟨d, hd⟩ := subSpend_rep (rep_B b) hD
    have he : po = d + sh H δ n • base := by
      rw [encodePoint_rep hd] at hDe
      rw [encPt_injective hDe]; abel
    obtain ⟨x, I, hx⟩ := precomp_complete hb0 hb1 ho hδ hD hd he
    refine ⟨recv, ds, idx, dv, δ, d, D, x, I, hk, hds, hi, hδ, hD, hd, he, ?_⟩
    rw [kiHelper, hk]
    dsimp only
    rw [hds]
    dsimp only
    rw [hi]
    dsimp only
    rw [hx]
    rfl
  rw [isOutToAcc, hK]
  dsimp only
  rw [encodePoint_rep hKr]
  rcases hg : t.get (encPt (po - sh H ((8 : ℤ) • a • pr) n • base)) with _ | idx
  · rcases h with h | ⟨R, p, hR, hp, h⟩
    · exact absurd hg h
    · have hlt : n < Rs.length := by
        by_contra hc
        rw [List.getElem?_eq_none (by omega)] at hR
        simp at hR
      obtain ⟨D, hD, hDr⟩ := hdn n R p hR hp
      obtain ⟨K', hK', hKr'⟩ := deriveSub_rep H hDr n ho
      obtain ⟨idx, hidx⟩ := Option.ne_none_iff_exists'.mp h
      refine ⟨idx, D, _, ?_, hDr, hidx⟩
      dsimp only
      rw [if_pos (by omega), hD]
      dsimp only
      rw [hK']
      dsimp only
      rw [encodePoint_rep hKr', hidx]
      rfl
  · exact ⟨idx, recv, _, rfl, hkr, hg⟩

/-! ## The sender's classification of destinations -/

def Dst.key (d : Dst) : Bytes := d.spend ++ d.view

theorem classify_mono (change : Option (Bytes × Bytes)) (ds : List Dst) (seen : List Bytes) (acc : ℕ × ℕ × Option (Bytes × Bytes)) :
    acc.1 ≤ (classifyLoop change ds seen acc).1 ∧ acc.2.1 ≤ (classifyLoop change ds seen acc).2.1 ∧
      ((classifyLoop change ds seen acc).2.1 = acc.2.1 → (classifyLoop change ds seen acc).2.2 = acc.2.2) := by
  induction ds generalizing seen acc with
  | nil => simp [classifyLoop]
  | cons d ds ih =>
    unfold classifyLoop
    dsimp only
    split
    · exact ih _ _
    · split
      · exact ih _ _
      · split
        · have := ih ((d.spend ++ d.view) :: seen) (acc.1, acc.2.1 + 1, some d.addr)
          refine ⟨this.1, by have := this.2.1; simp at this; omega, fun h => ?_⟩
          have h2 := this.2.1
          simp only at h2
          omega
        · have := ih ((d.spend ++ d.view) :: seen) (acc.1 + 1, acc.2.1, acc.2.2)
          refine ⟨by have := this.1; simp at this; omega, this.2.1, this.2.2⟩

theorem classify_counts (change : Option (Bytes × Bytes)) (d : Dst) (hc : change ≠ some d.addr) (ds : List Dst) (hd : d ∈ ds)
    (hsame : ∀ e ∈ ds, change ≠ some e.addr → e.key = d.key → e.isSub = d.isSub ∧ e.addr = d.addr) (seen : List Bytes) (hs : d.key ∉ seen)
    (acc : ℕ × ℕ × Option (Bytes × Bytes)) :
    (d.isSub = false → acc.1 + 1 ≤ (classifyLoop change ds seen acc).1) ∧
    (d.isSub = true → acc.2.1 + 1 ≤ (classifyLoop change ds seen acc).2.1 ∧
      ((classifyLoop change ds seen acc).2.1 = acc.2.1 + 1 → (classifyLoop change ds seen acc).2.2 = some d.addr)) := by
  induction ds generalizing seen acc with
  | nil => simp at hd
  | cons e ds ih =>
    have hsame' : ∀ e ∈ ds, change ≠ some e.addr → e.key = d.key → e.isSub = d.isSub ∧ e.addr = d.addr :=
      fun e he => hsame e (List.mem_cons_of_mem _ he)
    unfold classifyLoop
    dsimp only
    split
    · rename_i hce
      have hne : d ≠ e := fun h => hc (h ▸ hce)
      exact ih ((List.mem_cons.mp hd).resolve_left hne) hsame' seen hs acc
    rename_i hce
    split
    · rename_i hseen
      have hse : e.key ∈ seen := by unfold Dst.key; simpa using hseen
      have hne : d ≠ e := fun h => hs (h ▸ hse)
      exact ih ((List.mem_cons.mp hd).resolve_left hne) hsame' seen hs acc
    by_cases hk : e.key = d.key
    · obtain ⟨hsub, haddr⟩ := hsame e (List.mem_cons_self) hce hk
      split
      · rename_i he
        rw [he] at hsub
        have := classify_mono change ds ((e.spend ++ e.view) :: seen) (acc.1, acc.2.1 + 1, some e.addr)
        refine ⟨fun h => by rw [h] at hsub; simp at hsub, fun _ => ⟨this.2.1, fun h => ?_⟩⟩
        rw [this.2.2 h, haddr]
      · rename_i he
        have := classify_mono change ds ((e.spend ++ e.view) :: seen) (acc.1 + 1, acc.2.1, acc.2.2)
        refine ⟨fun _ => this.1, fun h => ?_⟩
        rw [h] at hsub
        exact absurd hsub he
    · have hne : d ≠ e := fun h => hk (h ▸ rfl)
      have hs' : d.key ∉ (e.spend ++ e.view) :: seen := by
        intro h
        rcases List.mem_cons.mp h with h | h
        · exact hk h.symm
        · exact hs h
      split
      · have := ih ((List.mem_cons.mp hd).resolve_left hne) hsame' _ hs' (acc.1, acc.2.1 + 1, some e.addr)
        refine ⟨this.1, fun h => ?_⟩
        have h2 := (this.2 h).1
        simp only at h2
        exact ⟨by omega, fun h3 => by omega⟩
      · have := ih ((List.mem_cons.mp hd).resolve_left hne) hsame' _ hs' (acc.1 + 1, acc.2.1, acc.2.2)
        refine ⟨fun h => by have h2 := this.1 h; dsimp only at h2 ⊢; omega, this.2⟩

/-! ## All outputs -/

theorem all_get {H : Bytes → Bytes} {k : TxKeys} {view : ℤ} {change : Option (Bytes × Bytes)} {i : ℕ} {ss : List ℤ} {ds : List Dst}
    {os : List OutKeys} (h : allOutKeys H k view change i ss ds = some os) :
    os.length = ds.length ∧ ∀ (n : ℕ) (d : Dst), ds[n]? = some d → ∃ s o, ss[n]? = some s ∧ os[n]? = some o ∧
      outKeys H k view change (i + n) s d = some o := by
  induction ds generalizing i ss os with
  | nil =>
    obtain rfl : os = [] := by cases ss <;> simpa [allOutKeys, eq_comm] using h
    simp
  | cons d ds ih =>
    cases ss with
    | nil => simp [allOutKeys] at h
    | cons s ss =>
      unfold allOutKeys at h
      split at h
      · rename_i o os' ho hos
        cases h
        obtain ⟨h1, h2⟩ := ih hos
        refine ⟨by simp [h1], fun n d' hd' => ?_⟩
        cases n with
        | zero =>
          obtain rfl : d = d' := by simpa using hd'
          exact ⟨s, o, rfl, rfl, ho⟩
        | succ n =>
          obtain ⟨s', o', ha, hb, hc⟩ := h2 n d' (by simpa using hd')
          exact ⟨s', o', by simpa using ha, by simpa using hb, by rw [show i + (n + 1) = i + 1 + n by omega]; exact hc⟩
      · simp at h

theorem decode_len {s : Bytes} {P : Ext} (h : decodePoint s = some P) : 32 ≤ s.length := by
  unfold decodePoint at h
  split at h
  · simp at h
  · omega

theorem outKeys_inv {H : Bytes → Bytes} {k : TxKeys} {view : ℤ} {change : Option (Bytes × Bytes)} {n : ℕ} {s : ℤ} {d : Dst} {o : OutKeys}
    (h : outKeys H k view change n s d = some o) :
    ∃ dv δ D p, outDerivation k view change s d = some dv ∧ Rep dv δ ∧ decodePoint d.spend = some D ∧ Rep D p ∧
      o.amountKey = sh H δ n ∧ Rep o.outKey (p + sh H δ n • base) ∧ additionalKey k s d = some o.additional := by
  unfold outKeys at h
  split at h
  · simp at h
  rename_i ad had
  split at h
  · simp at h
  rename_i dv hdv
  split at h
  · rename_i ak D hak hD
    obtain ⟨P, hP, rfl⟩ := Option.map_eq_some_iff.mp h
    obtain ⟨p, hp⟩ := decodePoint_rep hD
    have : ∃ δ, Rep dv δ := by
      unfold derivationToScalar at hak
      split at hak
      · rename_i hc; exact (isOnCurve_iff dv).mp hc
      · simp at hak
    obtain ⟨δ, hδ⟩ := this
    obtain ⟨P', hP', hPr⟩ := derivePublic_rep H hδ n hp
    rw [hP] at hP'
    cases hP'
    rw [toScalar_rep H hδ] at hak
    exact ⟨dv, δ, D, p, hdv, hδ, hD, hp, by simpa using hak.symm, hPr, had⟩
  · simp at h

theorem published (os : List OutKeys) (h : ∀ o ∈ os, ∀ A, o.additional = some A → ∃ p, Rep A p) :
    ∃ As, decodeAll (publishedKeys os) = some As ∧ (∀ R ∈ As, ∃ p, Rep R p) ∧
      ((∀ o ∈ os, o.additional ≠ none) → As.length = os.length ∧ ∀ (n : ℕ) (o : OutKeys) (A : Ext) (p : Point), os[n]? = some o →
        o.additional = some A → Rep A p → ∃ R, As[n]? = some R ∧ Rep R p) ∧
      ((∀ o ∈ os, o.additional = none) → As = []) := by
  induction os with
  | nil => exact ⟨[], rfl, by simp, by simp, by simp⟩
  | cons o os ih =>
    obtain ⟨As, h1, h2, h3, h4⟩ := ih fun o ho => h o (List.mem_cons_of_mem _ ho)
    rcases ha : o.additional with _ | A
    · refine ⟨As, ?_, h2, fun hn => absurd ha (hn o List.mem_cons_self), fun hn => h4 fun o ho => hn o (List.mem_cons_of_mem _ ho)⟩
      rw [publishedKeys, List.filterMap_cons_none (by rw [ha]; rfl)]
      exact h1
    · obtain ⟨p, hp⟩ := h o List.mem_cons_self A ha
      refine ⟨canon p :: As, ?_, ?_, ?_, ?_⟩
      · rw [publishedKeys, List.filterMap_cons_some (b := encodePoint A) (by rw [ha]; rfl), decodeAll]
        rw [publishedKeys] at h1
        rw [encodePoint_rep hp, decode_encPt, h1]
      · intro R hR
        rcases List.mem_cons.mp hR with rfl | hR
        · exact ⟨p, rep_canon p⟩
        · exact h2 R hR
      · intro hn
        obtain ⟨hl, hg⟩ := h3 fun o ho => hn o (List.mem_cons_of_mem _ ho)
        refine ⟨by simp [hl], fun n o' A' p' ho' hA' hp' => ?_⟩
        cases n with
        | zero =>
          obtain rfl : o = o' := by simpa using ho'
          rw [ha] at hA'
          cases hA'
          rw [rep_unique hp' hp]
          exact ⟨canon p, rfl, rep_canon p⟩
        | succ n => simpa using hg n o' A' p' (by simpa using ho') hA' hp'
      · intro hn
        have := hn o List.mem_cons_self
        rw [ha] at this
        simp at this

theorem additional_rep {k : TxKeys} {s : ℤ} (hs : 0 ≤ s) {d : Dst} {A : Ext} (h : additionalKey k s d = some (some A)) : ∃ p, Rep A p := by
  unfold additionalKey at h
  split at h
  · simp at h
  · split at h
    · obtain ⟨D, hD, he⟩ := Option.map_eq_some_iff.mp h
      cases he
      obtain ⟨p, hp⟩ := decodePoint_rep hD
      exact ⟨_, rep_smul hp hs⟩
    · cases h
      exact ⟨_, rep_B s⟩

theorem additional_need {k : TxKeys} {s : ℤ} {d : Dst} {A : Option Ext} (h : additionalKey k s d = some A) :
    (k.needAdditional = true ↔ A ≠ none) := by
  unfold additionalKey at h
  split at h
  · rename_i hk
    cases h
    simpa using hk
  · rename_i hk
    have hk : k.needAdditional = true := by simpa using hk
    split at h
    · obtain ⟨D, hD, he⟩ := Option.map_eq_some_iff.mp h
      cases he
      simp [hk]
    · cases h
      simp [hk]

theorem txKeys_inv {r : ℤ} (hr : 0 ≤ r) {dsts : List Dst} {change : Option (Bytes × Bytes)} {k : TxKeys} (h : txKeys r dsts change = some k) :
    k.r = r ∧ (k.needAdditional = true ↔ ((classify dsts change).2.1 > 0 ∧ ((classify dsts change).1 > 0 ∨ (classify dsts change).2.1 > 1))) ∧
    (∃ p, Rep k.rPub p) ∧
    ((classify dsts change).1 = 0 ∧ (classify dsts change).2.1 = 1 →
      ∃ ad D, (classify dsts change).2.2 = some ad ∧ decodePoint ad.1 = some D ∧ k.rPub = smul D r) ∧
    (¬((classify dsts change).1 = 0 ∧ (classify dsts change).2.1 = 1) → k.rPub = scalarmultB r) := by
  unfold txKeys at h
  dsimp only at h
  split at h
  · rename_i hc
    split at h
    · simp at h
    · rename_i ad had
      obtain ⟨D, hD, rfl⟩ := Option.map_eq_some_iff.mp h
      obtain ⟨p, hp⟩ := decodePoint_rep hD
      exact ⟨rfl, by simp, ⟨_, rep_smul hp hr⟩, fun _ => ⟨ad, D, had, hD, rfl⟩, fun h => absurd hc h⟩
  · rename_i hc
    have hb : ∃ p, Rep (scalarmultB r) p := ⟨r • base, rep_B r⟩
    generalize scalarmultB r = P at h hb ⊢
    cases h
    exact ⟨rfl, decide_eq_true_iff, hb, fun h => absurd h hc, fun _ => rfl⟩

end Verif.Key
