import Verif.Lemmas.BpSound
import Verif.Props.Bulletproof
import Mathlib.LinearAlgebra.Dimension.FreeAndStrongRankCondition
import Mathlib.FieldTheory.Finiteness

/-!
C100: Bulletproofs cannot be made for other amounts. The tree of proofs, the combinations of generators and what being in range means are in
Spec/BpSound.lean.
-/

namespace Verif.Bp
open Verif Ed Key Sig Edwards

variable {F M : Type*} [Field F] [AddCommGroup M] [Module F M]

/-- C100: if a prover that writes its points as combinations of the generators answers a whole tree of challenges, every commitment is to a number of
64 bits, and no generator but those for amounts and masks occurs in it. Any number of blocks that is a power of two. -/
theorem C100_sound {m k : ℕ} (hk : 2 ^ k = m * 64) {V : List (Gen →₀ F)} (h : Convincing F (formal F) m k V) : InRange F (formal F) V := by
  intro P hP
  obtain ⟨j, hj, rfl⟩ := List.mem_iff_getElem.mp hP
  have := sound hk h j hj
  rwa [List.getD_eq_getElem?_getD, List.getElem?_eq_getElem hj] at this

/-- C100: in the group, for any generators: a prover answering the whole tree has committed to numbers of 64 bits only, or one of the equations of
its answers is a relation between the generators. -/
theorem C100_group (g : Gens M) {m k : ℕ} (hk : 2 ^ k = m * 64) {V : List (Gen →₀ F)}
    (h : Tree F (fun c p => (eq1 g m c (p.eval g) = 0 ∧ eq2 g m c (p.eval g) = 0) ∧
      NoRelation g (eq1 (formal F) m c p) ∧ NoRelation g (eq2 (formal F) m c p)) m k V) :
    InRange F (formal F) V ∧ InRange F g (V.map (eval g)) := by
  have hs := C100_sound hk (h.mono fun c p ⟨⟨e1, e2⟩, n1, n2⟩ => ⟨n1 (by rw [eval_eq1, e1]), n2 (by rw [eval_eq2, e2])⟩)
  refine ⟨hs, fun P hP => ?_⟩
  obtain ⟨Q, hQ, rfl⟩ := List.mem_map.mp hP
  obtain ⟨v, hv, γ, e⟩ := hs Q hQ
  refine ⟨v, hv, γ, ?_⟩
  obtain ⟨hG, hU, -, -⟩ := eval_formal (F := F) g
  rw [← map_smul, e, map_add, map_smul, map_smul, hG, hU]

/-- C100: each accepted proof gives its part of the tree. If the program accepts the encoding of a proof, whose points are combinations of the
generators, with two different first weights and a nonzero second one, then both equations hold for the challenges hashed from the transcript. -/
theorem C100_accepted (H : Bytes → Bytes) (p : Pf Fl (Gen →₀ Fl)) {wy wy' wz : ℤ} (hw : wy % l ≠ wy' % l) (hz : wz % l ≠ 0)
    (h : verify H (bytes (p.eval (gens H))) wy wz = some ()) (h' : verify H (bytes (p.eval (gens H))) wy' wz = some ()) :
    let c := chs H (bytes (p.eval (gens H)))
    let m := 2 ^ logM p.V.length
    2 ^ p.L.length = m * 64 ∧ c.ws.length = p.L.length ∧ eq1 (gens H) m c (p.eval (gens H)) = 0 ∧ eq2 (gens H) m c (p.eval (gens H)) = 0 := by
  obtain ⟨w1, w2⟩ := C44_weights H (p.eval (gens H))
  have e1 : eq1 (gens H) (2 ^ logM (p.eval (gens H)).V.length) (chs H (bytes (p.eval (gens H)))) (p.eval (gens H)) = 0 := by
    by_contra hc
    exact hw (w1 hc wy wy' wz h h')
  have e2 : eq2 (gens H) (2 ^ logM (p.eval (gens H)).V.length) (chs H (bytes (p.eval (gens H)))) (p.eval (gens H)) = 0 := by
    by_contra hc
    exact hz (w2 e1 hc wy wz h)
  have ev : (p.eval (gens H)).V.length = p.V.length := by simp [Pf.eval]
  rw [ev] at e1 e2
  obtain ⟨hs, -⟩ := (C44_accept_iff H [p.eval (gens H)] true [(wy, wz)] rfl).mp h
  obtain ⟨⟨-, hLR, -⟩, hL, -, -⟩ := hs _ (List.mem_singleton_self _)
  rw [ev] at hL
  have el : (p.eval (gens H)).L.length = p.L.length := by simp [Pf.eval]
  refine ⟨by rw [← el, hL, pow_add]; ring, ?_, e1, e2⟩
  have hcl : ∀ (c : ℤ) (q : List (Bytes × Bytes)), (chWs H c q).length = q.length := by
    intro c q
    induction q generalizing c with
    | nil => rfl
    | cons a q ih => obtain ⟨L, R⟩ := a; simp only [chWs, List.length_cons, ih]
  simp only [chs, List.length_map, hcl, bytes, List.length_zip, ← hLR]
  simp [Pf.eval]

/-- The sum of commitments with the given amounts and masks. -/
noncomputable def committed (g : Gens M) (a : List (ℕ × F)) : M := (a.map fun t => (t.1 : F) • g.U + t.2 • g.G).sum

theorem committed_eq (g : Gens M) (a : List (ℕ × F)) : committed g a = (((a.map Prod.fst).sum : ℕ) : F) • g.U + (a.map Prod.snd).sum • g.G := by
  induction a with
  | nil => simp [committed]
  | cons t a ih =>
    simp only [committed, List.map_cons, List.sum_cons, Nat.cast_add] at ih ⊢
    rw [ih]
    module

theorem sum_lt {a : List (ℕ × Fl)} (h : ∀ t ∈ a, t.1 < 2 ^ 64) : (a.map Prod.fst).sum ≤ a.length * 2 ^ 64 := by
  induction a with
  | nil => simp
  | cons t a ih =>
    have h1 := ih fun u hu => h u (List.mem_cons_of_mem _ hu)
    have h2 := h t List.mem_cons_self
    simp only [List.map_cons, List.sum_cons, List.length_cons]
    omega

theorem sum_small {s n f : ℕ} (h : s ≤ n * 2 ^ 64) (hn : n < 2 ^ 100) (hf : f < 2 ^ 64) : s + f < lN := by
  have h1 : s + f < 2 ^ 200 := by omega
  exact Nat.lt_of_lt_of_le h1 (by decide +kernel)

/-- C100: nothing is created. If the commitments of the inputs are those of the outputs and the fee, and all amounts have 64 bits (as range proofs show),
then the amounts of the inputs are those of the outputs and the fee, as numbers, and the masks agree; or the difference is a relation between the
two generators. Any lists of fewer than `2^100` inputs and outputs. -/
theorem C100_conserved (g : Gens M) [Module Fl M] {a b : List (ℕ × Fl)} {fee : ℕ} (ha : ∀ t ∈ a, t.1 < 2 ^ 64) (hb : ∀ t ∈ b, t.1 < 2 ^ 64)
    (hfee : fee < 2 ^ 64) (hla : a.length < 2 ^ 100) (hlb : b.length < 2 ^ 100) (h : committed g a = committed g b + (fee : Fl) • g.U)
    (hr : NoRelation g (committed (formal Fl) a - (committed (formal Fl) b + (fee : Fl) • (formal Fl).U))) :
    (a.map Prod.fst).sum = (b.map Prod.fst).sum + fee ∧ (a.map Prod.snd).sum = (b.map Prod.snd).sum := by
  have e := hr (by
    obtain ⟨hG, hU, -, -⟩ := eval_formal (F := Fl) g
    simp only [committed_eq, map_sub, map_add, map_smul, hG, hU] at h ⊢
    rw [h, sub_self])
  have e := sub_eq_zero.mp e
  rw [committed_eq, committed_eq] at e
  have eU := congrArg (fun r : Gen →₀ Fl => r .U) e
  have eG := congrArg (fun r : Gen →₀ Fl => r .G) e
  simp only [formal, Finsupp.add_apply, Finsupp.smul_apply, Finsupp.single_apply, reduceCtorEq, if_true, if_false, smul_eq_mul, mul_one, mul_zero,
    add_zero, zero_add] at eU eG
  refine ⟨?_, eG⟩
  rw [← Nat.cast_add] at eU
  have hN := (ZMod.natCast_eq_natCast_iff' _ _ lN).mp eU
  have b1 : (a.map Prod.fst).sum < lN := sum_small (sum_lt ha) hla (Nat.zero_lt_succ _)
  have b2 : (b.map Prod.fst).sum + fee < lN := sum_small (sum_lt hb) hlb hfee
  rwa [Nat.mod_eq_of_lt b1, Nat.mod_eq_of_lt b2] at hN

example : let a : List (ℕ × Fl) := [(7, 3), (2 ^ 64 - 1, 5)]
    let b : List (ℕ × Fl) := [(2 ^ 64 - 10, 8), (14, 0)]
    committed (formal Fl) a = committed (formal Fl) b + ((2 : ℕ) : Fl) • (formal Fl).U ∧
    NoRelation (formal Fl) (committed (formal Fl) a - (committed (formal Fl) b + ((2 : ℕ) : Fl) • (formal Fl).U)) := by
  intro a b
  have e : committed (formal Fl) a = committed (formal Fl) b + ((2 : ℕ) : Fl) • (formal Fl).U := by
    rw [committed_eq, committed_eq, add_right_comm, ← add_smul, ← Nat.cast_add]
    have e1 : (a.map Prod.fst).sum = (b.map Prod.fst).sum + 2 := by decide
    have e2 : (a.map Prod.snd).sum = (b.map Prod.snd).sum := by
      show (3 + (5 + 0) : Fl) = 8 + (0 + 0)
      ring
    rw [e1, e2]
  exact ⟨e, fun _ => by rw [e, sub_self]⟩

/-! ## Such trees exist -/

theorem card_fl : Fintype.card Fl = lN := ZMod.card lN

theorem nat_inj {a b : ℕ} (ha : a < 1000) (hb : b < 1000) (h : (a : Fl) = (b : Fl)) : a = b := by
  have := (ZMod.natCast_eq_natCast_iff' a b lN).mp h
  rwa [Nat.mod_eq_of_lt (lt_trans ha (by decide +kernel)), Nat.mod_eq_of_lt (lt_trans hb (by decide +kernel))] at this

/-- C100: with up to `2^20` blocks, over the scalars of the curve, the commitments for which all challenges can be answered are exactly those in range. -/
theorem C100_iff {m k : ℕ} (hk : 2 ^ k = m * 64) (hm : m ≤ 2 ^ 20) {V : List (Gen →₀ Fl)} (hV : V.length ≤ m) :
    Convincing Fl (formal Fl) m k V ↔ InRange Fl (formal Fl) V := by
  refine ⟨C100_sound hk, fun h => ?_⟩
  have hl : 2 ^ 30 ≤ lN := by decide +kernel
  have h8 : (8 : Fl) ≠ 0 := fun h => by
    have := nat_inj (a := 8) (b := 0) (by norm_num) (by norm_num) (by exact_mod_cast h)
    omega
  have hY : m * 64 ≤ (Finset.univ.erase (0 : Fl)).card := by
    rw [Finset.card_erase_of_mem (Finset.mem_univ _), Finset.card_univ, card_fl]
    have : m * 64 + 1 ≤ lN := le_trans (by omega) hl
    exact Nat.le_sub_of_add_le this
  have hU : m + 2 ≤ (Finset.univ : Finset Fl).card ∧ 3 ≤ (Finset.univ : Finset Fl).card ∧ 2 ≤ (Finset.univ : Finset Fl).card := by
    rw [Finset.card_univ, card_fl]
    exact ⟨le_trans (by omega) hl, le_trans (by omega) hl, le_trans (by omega) hl⟩
  have hW : ((Finset.range 4).image fun i : ℕ => ((i + 1 : ℕ) : Fl)).card = 4 := by
    rw [Finset.card_image_of_injOn, Finset.card_range]
    intro a ha b hb e
    have ha := Finset.mem_range.mp (Finset.mem_coe.mp ha)
    have hb := Finset.mem_range.mp (Finset.mem_coe.mp hb)
    have := nat_inj (by omega) (by omega) e
    omega
  refine complete (formal Fl) hk h8 hV hY (fun y hy => Finset.ne_of_mem_erase hy) hU.1 hU.2.1 hU.2.2 hW.ge ?_ ?_ ?_
  · intro w hw
    obtain ⟨i, hi, rfl⟩ := Finset.mem_image.mp hw
    have hi := Finset.mem_range.mp hi
    intro e
    have := nat_inj (a := i + 1) (b := 0) (by omega) (by omega) (by rw [e, Nat.cast_zero])
    omega
  · intro w hw w' hw' e
    obtain ⟨i, hi, rfl⟩ := Finset.mem_image.mp hw
    obtain ⟨j, hj, rfl⟩ := Finset.mem_image.mp hw'
    have hi := Finset.mem_range.mp hi
    have hj := Finset.mem_range.mp hj
    rw [← Nat.cast_pow, ← Nat.cast_pow] at e
    have b1 : (i + 1) ^ 2 < 1000 := lt_of_le_of_lt (Nat.pow_le_pow_left (by omega : i + 1 ≤ 4) 2) (by norm_num)
    have b2 : (j + 1) ^ 2 < 1000 := lt_of_le_of_lt (Nat.pow_le_pow_left (by omega : j + 1 ≤ 4) 2) (by norm_num)
    have := nat_inj b1 b2 e
    rw [Nat.pow_left_injective (n := 2) (by norm_num) this]
  · intro j hj
    have := h V[j] (List.getElem_mem hj)
    rwa [List.getD_eq_getElem?_getD, List.getElem?_eq_getElem hj]

/-- The commitment to `v` with mask `γ`, divided by eight, as a combination. -/
noncomputable def commitment (v : ℕ) (γ : Fl) : Gen →₀ Fl := (8 : Fl)⁻¹ • ((v : Fl) • (formal Fl).U + γ • (formal Fl).G)

/-- Two amounts, one of them the largest. -/
noncomputable def two : List (Gen →₀ Fl) := [commitment 7 11, commitment (2 ^ 64 - 1) 13]

theorem two_inRange : InRange Fl (formal Fl) two := by
  have h8 : (8 : Fl) ≠ 0 := fun h => by
    have := nat_inj (a := 8) (b := 0) (by norm_num) (by norm_num) (by exact_mod_cast h)
    omega
  intro P hP
  simp only [two, List.mem_cons, List.not_mem_nil, or_false] at hP
  rcases hP with rfl | rfl
  · exact ⟨7, by norm_num, 11, by rw [commitment, smul_smul, mul_inv_cancel₀ h8, one_smul]⟩
  · exact ⟨2 ^ 64 - 1, by norm_num, 13, by rw [commitment, smul_smul, mul_inv_cancel₀ h8, one_smul]⟩

example : 2 ^ 7 = 2 * 64 ∧ Convincing Fl (formal Fl) 2 7 two := ⟨rfl, (C100_iff rfl (by norm_num) (by simp [two])).mpr two_inRange⟩

example (H : Bytes → Bytes) : Tree Fl (fun c p => (eq1 (gens H) 2 c (p.eval (gens H)) = 0 ∧ eq2 (gens H) 2 c (p.eval (gens H)) = 0) ∧
    NoRelation (gens H) (eq1 (formal Fl) 2 c p) ∧ NoRelation (gens H) (eq2 (formal Fl) 2 c p)) 2 7 two :=
  ((C100_iff rfl (by norm_num) (by simp [two])).mpr two_inRange).mono fun c p ⟨e1, e2⟩ =>
    ⟨⟨by rw [← eval_eq1, e1, map_zero], by rw [← eval_eq2, e2, map_zero]⟩, fun _ => e1, fun _ => e2⟩

/-- An amount of 65 bits: no tree. -/
example : ¬ Convincing Fl (formal Fl) 1 6 [commitment (2 ^ 64) 0] := fun h => by
  obtain ⟨v, hv, γ, e⟩ := C100_sound rfl h _ (List.mem_singleton_self _)
  have h8 : (8 : Fl) ≠ 0 := fun h => by
    have := nat_inj (a := 8) (b := 0) (by norm_num) (by norm_num) (by exact_mod_cast h)
    omega
  rw [commitment, smul_smul, mul_inv_cancel₀ h8, one_smul] at e
  have e := congrArg (fun r : Gen →₀ Fl => r .U) e
  simp only [formal, Finsupp.add_apply, Finsupp.smul_apply, Finsupp.single_apply, reduceCtorEq, if_true, if_false, smul_eq_mul, mul_one, mul_zero, add_zero] at e
  have := (ZMod.natCast_eq_natCast_iff' _ _ lN).mp e
  rw [Nat.mod_eq_of_lt (by decide +kernel), Nat.mod_eq_of_lt (lt_trans hv (by decide +kernel))] at this
  omega

/-- Every point of the subgroup is a multiple of the base point. -/
theorem sub_cyclic (P : Sub) : ∃ c : Fl, c • baseS = P := by
  have hfin : Module.Finite Fl Sub := Module.Finite.of_finite
  haveI : Fintype Sub := Fintype.ofFinite _
  have hb : baseS ≠ 0 := fun h => by
    have := congrArg Subtype.val h
    exact absurd this base_ne
  refine (finrank_eq_one_iff_of_nonzero' baseS hb).mp ?_ P
  have hc : Nat.card Sub = lN ^ Module.finrank Fl Sub := by
    rw [Module.natCard_eq_pow_finrank (K := Fl), Nat.card_eq_fintype_card, card_fl]
  have hd := AddSubgroup.card_addSubgroup_dvd_card Sub
  rw [hc, card_point] at hd
  have hpos : 0 < Module.finrank Fl Sub := Module.finrank_pos_iff_exists_ne_zero.mpr ⟨baseS, hb⟩
  by_contra hne
  have h2 : lN ^ 2 ∣ 8 * lN := (pow_dvd_pow lN (by omega)).trans hd
  rw [pow_two] at h2
  have := Nat.dvd_of_mul_dvd_mul_right (by decide +kernel) h2
  exact absurd (Nat.le_of_dvd (by norm_num) this) (by decide +kernel)

/-- Every proof of points of the subgroup is one of combinations. -/
theorem exists_combinations (g : Gens Sub) (hg : g.G = baseS) (p : Pf Fl Sub) : ∃ q : Pf Fl (Gen →₀ Fl), q.eval g = p := by
  have h1 : ∀ P : Sub, ∃ r : Gen →₀ Fl, eval g r = P := fun P => by
    obtain ⟨c, hc⟩ := sub_cyclic P
    exact ⟨c • (formal Fl).G, by rw [map_smul, (eval_formal g).1, hg, hc]⟩
  choose f hf using h1
  have hm : ∀ L : List Sub, (L.map f).map (eval g) = L := fun L => by
    rw [List.map_map]
    exact (List.map_congr_left fun P _ => hf P).trans (List.map_id L)
  exact ⟨⟨p.V.map f, f p.A, f p.S, f p.T1, f p.T2, p.taux, p.mu, p.L.map f, p.R.map f, p.a, p.b, p.t⟩, by simp [Pf.eval, hm, hf]⟩

example : ∃ p : Pf Fl (Gen →₀ Fl), (1 : ℤ) % l ≠ 2 % l ∧ (3 : ℤ) % l ≠ 0 ∧ verify oneH (bytes (p.eval (gens oneH))) 1 3 = some () ∧
    verify oneH (bytes (p.eval (gens oneH))) 2 3 = some () := by
  obtain ⟨π, hπ, hv⟩ := C44_produces oneH oneH_ne ⟨3, 4, 5, 6, fun i => i, fun i => 2 * i⟩ (fun i => by simp) (fun i => by simp) [7, 2 ^ 64 - 1, 0] [11, 0, 13]
    (by simp) (by simp) rfl (by simp)
  obtain ⟨q, rfl, -⟩ := C44_equations oneH _ (fun i => by simp) (fun i => by simp) _ _ rfl (by simp) hπ
    (C44_checks oneH [π] true [(1, 1)] (hv 1 1) π (List.mem_singleton_self _)).2.2.2.2.2
  obtain ⟨p, rfl⟩ := exists_combinations (gens oneH) rfl q
  exact ⟨p, by decide +kernel, by decide +kernel, hv _ _, hv _ _⟩

end Verif.Bp
