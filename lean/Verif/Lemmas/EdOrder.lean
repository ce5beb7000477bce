import Verif.Lemmas.EdCodec
import Mathlib.GroupTheory.OrderOfElement
import Mathlib.Algebra.Module.ZMod

/-! The number of points of the curve, and its subgroup of prime order. -/

namespace Verif.Ed
open Verif Verif.Edwards

/-- An extended point given by coordinates that are on the curve. -/
theorem exists_of_onCurve {P : Ext} (h : isOnCurve P = true) : ∃ p, Rep P p := (isOnCurve_iff P).mp h

theorem B_val : B = ⟨15112221349535400772501151409588531511454012693041857206046113283949847762202,
    46316835694926478169428394003475163141307993866256225615783033603165251855960, 1,
    46827403850823179245072216630277197565144205554125654976674165829533817101731⟩ := by decide +kernel

theorem B_on : isOnCurve B = true := by decide +kernel

/-- The base point. -/
noncomputable def base : Point := Classical.choose (exists_of_onCurve B_on)
theorem rep_base : Rep B base := Classical.choose_spec (exists_of_onCurve B_on)

theorem l_base : lN • base = 0 := by
  have h1 := rep_smulFuel rep_base 253 lN (by decide +kernel)
  refine (pointEqual_iff h1 rep_ident).mp ?_
  rw [B_val]
  decide +kernel

theorem base_ne : base ≠ 0 := by
  intro h
  have := (pointEqual_iff rep_base rep_ident).mpr h
  rw [B_val] at this
  revert this
  decide +kernel

theorem order_base : addOrderOf base = lN := addOrderOf_eq_prime l_base base_ne

/-- A point of order 8. -/
def T8 : Ext := ⟨14399317868200118260347934320527232580618823971194345261214217575416788799818,
  55188659117513257062467267217118295137698188065244968500265048394206261417927, 1,
  14399317868200118260347934320527232580618823971194345261214217575416788799818 *
    55188659117513257062467267217118295137698188065244968500265048394206261417927⟩

theorem T8_on : isOnCurve T8 = true := by rw [isOnCurve, d_val]; decide +kernel

theorem exists_order8 : ∃ p : Point, addOrderOf p = 8 := by
  obtain ⟨p, hp⟩ := exists_of_onCurve T8_on
  refine ⟨p, ?_⟩
  have h := addOrderOf_eq_prime_pow (p := 2) (n := 2) (x := p) ?_ ?_
  · simpa using h
  · intro h4
    have := (pointEqual_iff (rep_smulFuel hp 3 4 (by norm_num)) rep_ident).mpr (by simpa using h4)
    revert this
    decide +kernel
  · have h1 := rep_smulFuel hp 4 8 (by norm_num)
    have := (pointEqual_iff h1 rep_ident).mp (by decide +kernel)
    simpa using this

/-- Bytes of an encoding as a number. -/
theorem bitSum_inj {s t : Bytes} (hs : s.length = 32) (ht : t.length = 32) (h : bitSum s 256 = bitSum t 256) : s = t := by
  apply bits_ext hs ht
  intro i hi
  rw [← bitSum_bit s 256 i hi, ← bitSum_bit t 256 i hi, h]

attribute [local irreducible] bitSum

def code (p : Point) : Fin (2 ^ 256) := ⟨bitSum (encPt p) 256, bitSum_lt _ _⟩

theorem code_injective : Function.Injective code := by
  intro p r h
  apply encPt_injective
  exact bitSum_inj (encPt_length p) (encPt_length r) (Fin.mk.inj_iff.mp h)

instance : Finite Point := Finite.of_injective code code_injective

/-- The curve has `8 l` points. -/
theorem card_point : Nat.card Point = 8 * lN := by
  have hle : Nat.card Point ≤ 2 ^ 256 := by
    have := Nat.card_le_card_of_injective code code_injective
    rwa [Nat.card_fin] at this
  have h1 : lN ∣ Nat.card Point := order_base ▸ addOrderOf_dvd_natCard base
  have h8 : 8 ∣ Nat.card Point := by
    obtain ⟨p, hp⟩ := exists_order8
    exact hp ▸ addOrderOf_dvd_natCard p
  have hco : Nat.Coprime 8 lN := by
    rw [Nat.coprime_comm, Nat.Prime.coprime_iff_not_dvd (Fact.out)]
    intro h
    have := Nat.le_of_dvd (by norm_num) h
    revert this
    decide +kernel
  obtain ⟨k, hk⟩ := hco.mul_dvd_of_dvd_of_dvd h8 h1
  have hpos : 0 < Nat.card Point := Nat.card_pos
  have h16 : 2 ^ 256 < 8 * lN * 2 := by decide +kernel
  have hk1 : k < 2 := by
    by_contra hc
    have : 8 * lN * 2 ≤ 8 * lN * k := Nat.mul_le_mul_left _ (by omega)
    omega
  have hk0 : k ≠ 0 := by rintro rfl; simp at hk; omega
  have : k = 1 := by omega
  rw [hk, this, mul_one]

/-- Eight times any point is in the subgroup of order `l`. -/
theorem l_eight (p : Point) : lN • (8 • p) = 0 := by
  rw [← mul_nsmul', mul_comm, ← card_point]
  exact card_nsmul_eq_zero'

/-- The subgroup of points of order dividing `l`. -/
def Sub : AddSubgroup Point where
  carrier := {p | lN • p = 0}
  add_mem' {a b} ha hb := by
    have ha : lN • a = 0 := ha
    have hb : lN • b = 0 := hb
    show lN • (a + b) = 0
    rw [nsmul_add, ha, hb, add_zero]
  zero_mem' := nsmul_zero _
  neg_mem' {a} ha := by
    have ha : lN • a = 0 := ha
    show lN • (-a) = 0
    rw [neg_nsmul, ha, neg_zero]

theorem mem_sub (p : Point) : p ∈ Sub ↔ lN • p = 0 := Iff.rfl

noncomputable instance : Module Fl Sub := AddCommGroup.zmodModule (n := lN) fun p => Subtype.ext (by
  simpa using (mem_sub p.1).mp p.2)

/-- The base point as a member of the subgroup. -/
noncomputable def baseS : Sub := ⟨base, l_base⟩

/-- Multiplying a point of the subgroup by a scalar is multiplying it by the scalar's representative. -/
theorem smul_sub (a : Fl) (p : Sub) : ((a • p : Sub) : Point) = a.val • (p : Point) := by
  conv_lhs => rw [← ZMod.natCast_zmod_val a, Nat.cast_smul_eq_nsmul]
  rfl

/-- The table of doubled base points. -/
theorem rep_smulBLoop (n : ℕ) (b P : Ext) (pb p : Point) (e : ℕ) (hb : Rep b pb) (hP : Rep P p) (he : e < 2 ^ n) :
    Rep (smulBLoop (bpow n b) P e) (p + e • pb) := by
  induction n generalizing b P pb p e with
  | zero => have : e = 0 := by simpa using he
            subst this; simpa [bpow, smulBLoop] using hP
  | succ n ih =>
    have h2 : e / 2 < 2 ^ n := by rw [pow_succ] at he; omega
    simp only [bpow, smulBLoop]
    by_cases hodd : e % 2 = 1
    · rw [if_pos hodd]
      have := ih (double b) (add P b) (pb + pb) (p + pb) (e / 2) (rep_double hb) (rep_add hP hb) h2
      convert this using 1
      rw [← two_nsmul, ← mul_nsmul', add_assoc, ← succ_nsmul']
      congr 2; omega
    · rw [if_neg hodd]
      have := ih (double b) P (pb + pb) p (e / 2) (rep_double hb) hP h2
      convert this using 1
      rw [← two_nsmul, ← mul_nsmul']
      congr 2; omega

/-- Fixed-base multiplication. -/
theorem rep_scalarmultB (e : ℕ) : Rep (scalarmultB e) (e • base) := by
  have hm : ((e : ℤ) % l).toNat = e % lN := by rw [l_eq]; omega
  have hlt : e % lN < 2 ^ 253 := lt_trans (Nat.mod_lt _ (by decide +kernel)) (by decide +kernel)
  have h := rep_smulBLoop 253 B ident base 0 (e % lN) rep_base rep_ident hlt
  rw [zero_add] at h
  rw [scalarmultB, hm]
  convert h using 1
  conv_lhs => rw [← Nat.mod_add_div e lN, add_nsmul, mul_comm, mul_nsmul', l_base, nsmul_zero, add_zero]

end Verif.Ed
