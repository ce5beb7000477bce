import Verif.Model.Offload
import Verif.Lemmas.BpProve

/-! Encoded vectors of scalars and points, and what the host of the offloaded prover computes with them. -/

namespace Verif.Off
open Verif Ed Key Sig Edwards Bp Finset

/-- The encoding of a scalar. -/
noncomputable def sc (s : Fl) : Bytes := encodeInt (num s)

/-- `c` encoded points from index `s` on, encoded scalars, and scalars as numbers. -/
noncomputable def pts (s c : ℕ) (G : ℕ → Sub) : Buf := (List.range' s c).map fun i => enc (G i)
noncomputable def scs (s c : ℕ) (A : ℕ → Fl) : Buf := (List.range' s c).map fun i => sc (A i)
noncomputable def nums (s c : ℕ) (A : ℕ → Fl) : List ℤ := (List.range' s c).map fun i => num (A i)

theorem encodeInt_sc {a : ℤ} (h : 0 ≤ a ∧ a < l) : encodeInt a = sc (a : Fl) := by rw [sc, num_cast h]

theorem l_lt : (l : ℤ) < 2 ^ 256 := by decide

theorem kInt_encodeInt {a : ℤ} (h : 0 ≤ a ∧ a < l) : kInt (encodeInt a) = a := by
  rw [kInt, bitSum_encodeInt _ _ le_rfl]
  exact Int.emod_eq_of_lt h.1 (h.2.trans l_lt)

theorem kInt_sc (s : Fl) : kInt (sc s) = num s := kInt_encodeInt (num_range s)

theorem cast_kInt_sc (s : Fl) : ((kInt (sc s) : ℤ) : Fl) = s := by rw [kInt_sc, cast_num]
theorem kInt_sc_nn (s : Fl) : 0 ≤ kInt (sc s) := by rw [kInt_sc]; exact (num_range s).1

theorem sc_mul (a b : ℤ) : encodeInt (scMul a b) = sc ((a : Fl) * b) := by
  rw [encodeInt_sc (a := scMul a b) (emod_l_range _), cast_scMul]

/-! ## Parts of vectors -/

theorem map_range'_shift {α : Type*} (f : ℕ → α) (s c : ℕ) : (List.range' s c).map f = (List.range c).map fun i => f (s + i) := by
  rw [List.range'_eq_map_range, List.map_map]; rfl

theorem map_range'_part {α : Type*} (f : ℕ → α) (s c k m : ℕ) (h : k + m ≤ c) :
    (((List.range' s c).map f).drop k).take m = (List.range' (s + k) m).map f := by
  rw [← List.map_drop, ← List.map_take, List.drop_range', Nat.mul_one, show c - k = m + (c - k - m) by omega,
    ← List.range'_append (s := s + k) (m := m) (n := c - k - m) (step := 1), List.take_left' (by simp)]

theorem map_range'_get {α : Type*} (f : ℕ → α) (s c i : ℕ) (h : i < c) : ((List.range' s c).map f)[i]? = some (f (s + i)) := by
  rw [List.getElem?_map, List.getElem?_range' h]; simp

@[simp] theorem pts_length (s c : ℕ) (G : ℕ → Sub) : (pts s c G).length = c := by simp [pts]
@[simp] theorem scs_length (s c : ℕ) (A : ℕ → Fl) : (scs s c A).length = c := by simp [scs]

theorem slice_map {f : ℕ → Bytes} {N s e : ℕ} (h1 : s ≤ e) (h2 : e ≤ N) :
    sliceV ((List.range' 0 N).map f) s e = some ((List.range' s (e - s)).map f) := by
  rw [sliceV, if_pos (by simpa using h2), map_range'_part _ _ _ _ _ (by omega), Nat.zero_add]

theorem chunkLo_map {f : ℕ → Bytes} {N b i : ℕ} (h : i * b + b ≤ N) : chunkLo b i ((List.range' 0 N).map f) = (List.range' (i * b) b).map f := by
  rw [chunkLo, map_range'_part _ _ _ _ _ h, Nat.zero_add]

theorem chunkHi_map {f : ℕ → Bytes} {N b n i : ℕ} (h : i * b + n + b ≤ N) :
    chunkHi b n i ((List.range' 0 N).map f) = (List.range' (n + i * b) b).map f := by
  rw [chunkHi, map_range'_part _ _ _ _ _ h, Nat.zero_add, Nat.add_comm]

theorem keyV_ne {n : ℕ} {b : Buf} (h : b ≠ []) : keyV n b = b := by rw [keyV, if_neg h]

theorem keyV_map {n s c : ℕ} {f : ℕ → Bytes} (h : c ≠ 0) : keyV n ((List.range' s c).map f) = (List.range' s c).map f :=
  keyV_ne (by simpa using h)

/-- Chunks put together. -/
theorem chunks_flatten {α : Type*} (f : ℕ → α) (c : ℕ) : ∀ (cnt i : ℕ),
    ((List.range' i cnt).map fun j => (List.range' (j * c) c).map f).flatten = (List.range' (i * c) (cnt * c)).map f
  | 0, i => by simp
  | cnt + 1, i => by
    rw [List.range'_succ, List.map_cons, List.flatten_cons, chunks_flatten f c cnt (i + 1), ← List.map_append, show (cnt + 1) * c = c + cnt * c by ring]
    congr 1
    have := List.range'_append (s := i * c) (m := c) (n := cnt * c) (step := 1)
    rw [Nat.one_mul, show i * c + c = (i + 1) * c by ring] at this
    exact this

theorem kInt_scs (s c : ℕ) (A : ℕ → Fl) : (scs s c A).map kInt = nums s c A := by
  rw [scs, nums, List.map_map]; exact List.map_congr_left fun i _ => kInt_sc _

theorem nums_SV (s c : ℕ) (A : ℕ → Fl) : SV (nums s c A) (List.range c) fun i => A (s + i) := by
  rw [nums, map_range'_shift]; exact SV.of_map _ (fun i => (num_range _).1) fun i => cast_num _

theorem pts_PV (s c : ℕ) (G : ℕ → Sub) : PV (pts s c G) (List.range c) fun i => G (s + i) := map_range'_shift _ _ _

theorem innerProduct_num (s s' n : ℕ) (A B : ℕ → Fl) :
    innerProduct (nums s n A) (nums s' n B) = some (num (∑ i ∈ range n, A (s + i) * B (s' + i))) := by
  obtain ⟨c, h1, h2⟩ := innerProduct_enc (nums_SV s n A) (nums_SV s' n B)
  rw [h1, ← h2, num_cast]
  rw [innerProduct] at h1
  split at h1
  · simp at h1
  · injection h1 with h1
    rw [← h1]
    exact foldl_range _ 0 ⟨le_rfl, l_pos⟩

theorem vecSumLoop_enc (A : ℕ → Fl) (G : ℕ → Sub) : ∀ (n s s' : ℕ) (acc : Ext) (p : Sub), Rep acc (p : Point) →
    ∃ P, vecSumLoop (scs s n A) (pts s' n G) acc = some P ∧ Rep P ((p + ∑ i ∈ range n, A (s + i) • G (s' + i) : Sub) : Point)
  | 0, s, s', acc, p, h => ⟨acc, rfl, by simpa using h⟩
  | n + 1, s, s', acc, p, h => by
    obtain ⟨P, e, hP⟩ := vecSumLoop_enc A G n (s + 1) (s' + 1) (add acc (smul (canon (G s' : Point)) (kInt (sc (A s))))) (p + A s • G s') (by
      have := rep_add h (rep_smulS (rep_sub_canon (G s')) (kInt_sc_nn (A s)))
      rw [cast_kInt_sc] at this
      exact this)
    refine ⟨P, ?_, ?_⟩
    · rw [scs, pts, List.range'_succ, List.range'_succ, List.map_cons, List.map_cons, vecSumLoop, decode_enc]
      exact e
    · rw [sum_range_succ']
      have e : ∑ i ∈ range n, A (s + (i + 1)) • G (s' + (i + 1)) = ∑ i ∈ range n, A (s + 1 + i) • G (s' + 1 + i) :=
        Finset.sum_congr rfl fun i _ => by rw [show s + (i + 1) = s + 1 + i by ring, show s' + (i + 1) = s' + 1 + i by ring]
      rw [e, Nat.add_zero, Nat.add_zero, add_comm (∑ i ∈ range n, _) _, ← add_assoc]
      exact hP

theorem vecSum_enc (s s' n : ℕ) (A : ℕ → Fl) (G : ℕ → Sub) :
    vecSum (scs s n A) (pts s' n G) = some (enc (∑ i ∈ range n, A (s + i) • G (s' + i))) := by
  obtain ⟨P, e, hP⟩ := vecSumLoop_enc A G n s s' ident 0 rep_ident
  rw [vecSum, e, Option.map_some, encode_rep hP, zero_add]

/-- The dot products of the host. -/
theorem compOffdots_enc (n : ℕ) (G Hp : ℕ → Sub) (A B : ℕ → Fl) :
    compOffdots (pts 0 (n + n) G) (pts 0 (n + n) Hp) (scs 0 (n + n) A) (scs 0 (n + n) B) n = some
      [[sc (∑ i ∈ range n, A i * B (n + i))], [sc (∑ i ∈ range n, A (n + i) * B i)],
       [enc (∑ i ∈ range n, A i • G (n + i))], [enc (∑ i ∈ range n, B (n + i) • Hp i)],
       [enc (∑ i ∈ range n, A (n + i) • G i)], [enc (∑ i ∈ range n, B i • Hp (n + i))]] := by
  have e : 2 * n - n = n := by omega
  have p0 (G : ℕ → Sub) : sliceV (pts 0 (n + n) G) 0 n = some (pts 0 n G) := slice_map (Nat.zero_le _) (by omega)
  have p1 (G : ℕ → Sub) : sliceV (pts 0 (n + n) G) n (2 * n) = some (pts n n G) := by
    have := slice_map (f := fun i => enc (G i)) (N := n + n) (s := n) (e := 2 * n) (by omega) (by omega)
    rwa [e] at this
  have s0 (A : ℕ → Fl) : sliceV (scs 0 (n + n) A) 0 n = some (scs 0 n A) := slice_map (Nat.zero_le _) (by omega)
  have s1 (A : ℕ → Fl) : sliceV (scs 0 (n + n) A) n (2 * n) = some (scs n n A) := by
    have := slice_map (f := fun i => sc (A i)) (N := n + n) (s := n) (e := 2 * n) (by omega) (by omega)
    rwa [e] at this
  simp only [compOffdots, p0, p1, s0, s1, Option.bind_eq_bind, Option.bind_some, kInt_scs, innerProduct_num, vecSum_enc, Nat.zero_add, sc]

/-! ## Folding by the host -/

/-- `p` on the first `m` indices, `r` after. -/
def bl2 {α : Type*} (m : ℕ) (p r : α) (i : ℕ) : α := if i < m then p else r

theorem range'_halves (m : ℕ) : List.range' 0 (m + m) = List.range' 0 m ++ List.range' m m := by
  have := List.range'_append (s := 0) (m := m) (n := m) (step := 1)
  rw [Nat.zero_add, Nat.one_mul] at this
  exact this.symm

theorem foldKeys_pts {a b : ℤ} (ha : 0 ≤ a) (hb : 0 ≤ b) (s s' c : ℕ) (G : ℕ → Sub) (n : ℕ) (h : s' = n + s) :
    foldKeys a b (pts s c G) (pts s' c G) = some (pts s c fun i => (a : Fl) • G i + (b : Fl) • G (n + i)) := by
  subst h
  have e : pts (n + s) c G = (List.range' s c).map fun i => enc (G (n + i)) := by
    rw [pts, map_range'_shift, map_range'_shift]; exact List.map_congr_left fun i _ => by rw [Nat.add_assoc]
  rw [e, pts, foldKeys_enc _ G (fun i => G (n + i)) ha hb]
  rfl

theorem foldSc_sc {a b : ℤ} (x y : Fl) : foldSc a b none (sc x) (sc y) = sc (x * a + y * b) := by
  rw [foldSc, encodeInt_sc (a := scAdd (scMul (kInt (sc x)) a) (scMul (kInt (sc y)) b)) (emod_l_range _)]
  simp [cast_scAdd, cast_scMul, cast_kInt_sc]

theorem foldScs_scs (a b : ℤ) (s s' c : ℕ) (A : ℕ → Fl) (n : ℕ) (h : s' = n + s) :
    foldScs a b (scs s c A) (scs s' c A) = scs s c fun i => A i * a + A (n + i) * b := by
  subst h
  have e : scs (n + s) c A = (List.range' s c).map fun i => sc (A (n + i)) := by
    rw [scs, map_range'_shift, map_range'_shift]; exact List.map_congr_left fun i _ => by rw [Nat.add_assoc]
  rw [e, foldScs, scs, List.zipWith_map, List.zipWith_self]
  exact List.map_congr_left fun i _ => foldSc_sc _ _

/-- The constants the device sends, as an answer. -/
theorem compFolding_pts {cs : List Buf} {ix : ℕ} {c0 c1 c2 c3 : Fl} (h0 : cs[4 * ix + 0]? = some [sc c0]) (h1 : cs[4 * ix + 1]? = some [sc c1])
    (h2 : cs[4 * ix + 2]? = some [sc c2]) (h3 : cs[4 * ix + 3]? = some [sc c3]) (hx : ix ≤ 1) (m : ℕ) (G : ℕ → Sub) :
    compFolding cs (m + m) (pts 0 (m + m + (m + m)) G) ix =
      some (pts 0 (m + m) fun i => bl2 m c0 c2 i • G i + bl2 m c1 c3 i • G (m + m + i)) := by
  have e : (m + m) / 2 = m := by omega
  have q (s e : ℕ) (h1 : s ≤ e) (h2 : e ≤ m + m + (m + m)) : sliceV (pts 0 (m + m + (m + m)) G) s e = some (pts s (e - s) G) := slice_map h1 h2
  simp only [compFolding, h0, h1, h2, h3, Option.bind_some, List.head?_cons, Option.map_some, Option.bind_eq_bind, e]
  rw [q 0 m (by omega) (by omega), q _ _ (by omega) (by omega), q _ _ (by omega) (by omega), q _ _ (by omega) (by omega)]
  simp only [Option.bind_some, if_pos hx]
  rw [show m - 0 = m by omega, show m + m + m - (m + m) = m by omega, show m + m - m = m by omega, show (m + m) * 2 - (m + m + m) = m by omega]
  rw [foldKeys_pts (kInt_sc_nn _) (kInt_sc_nn _) _ _ _ _ (m + m) (by omega), Option.bind_some,
    foldKeys_pts (kInt_sc_nn _) (kInt_sc_nn _) _ _ _ _ (m + m) (by omega), Option.bind_some]
  congr 1
  simp only [cast_kInt_sc]
  unfold pts
  rw [range'_halves m, List.map_append]
  refine congrArg₂ _ (List.map_congr_left fun i hi => ?_) (List.map_congr_left fun i hi => ?_)
  · have : i < m := by simp at hi; omega
    simp [bl2, this]
  · have : ¬ i < m := by simp at hi; omega
    simp [bl2, this]

theorem compFolding_scs {cs : List Buf} {ix : ℕ} {c0 c1 c2 c3 : Fl} (h0 : cs[4 * ix + 0]? = some [sc c0]) (h1 : cs[4 * ix + 1]? = some [sc c1])
    (h2 : cs[4 * ix + 2]? = some [sc c2]) (h3 : cs[4 * ix + 3]? = some [sc c3]) (hx : ¬ ix ≤ 1) (m : ℕ) (A : ℕ → Fl) :
    compFolding cs (m + m) (scs 0 (m + m + (m + m)) A) ix =
      some (scs 0 (m + m) fun i => A i * bl2 m c0 c2 i + A (m + m + i) * bl2 m c1 c3 i) := by
  have e : (m + m) / 2 = m := by omega
  have q (s e : ℕ) (h1 : s ≤ e) (h2 : e ≤ m + m + (m + m)) : sliceV (scs 0 (m + m + (m + m)) A) s e = some (scs s (e - s) A) := slice_map h1 h2
  simp only [compFolding, h0, h1, h2, h3, Option.bind_some, List.head?_cons, Option.map_some, Option.bind_eq_bind, e]
  rw [q 0 m (by omega) (by omega), q _ _ (by omega) (by omega), q _ _ (by omega) (by omega), q _ _ (by omega) (by omega)]
  simp only [Option.bind_some, if_neg hx]
  rw [show m - 0 = m by omega, show m + m + m - (m + m) = m by omega, show m + m - m = m by omega, show (m + m) * 2 - (m + m + m) = m by omega]
  rw [foldScs_scs _ _ _ _ _ _ (m + m) (by omega), foldScs_scs _ _ _ _ _ _ (m + m) (by omega)]
  congr 1
  simp only [cast_kInt_sc]
  unfold scs
  rw [range'_halves m, List.map_append]
  refine congrArg₂ _ (List.map_congr_left fun i hi => ?_) (List.map_congr_left fun i hi => ?_)
  · have : i < m := by simp at hi; omega
    simp [bl2, this]
  · have : ¬ i < m := by simp at hi; omega
    simp [bl2, this]

theorem subAll_pts (F G : ℕ → Sub) : ∀ c s : ℕ, subAll (pts s c F) (pts s c G) = some (pts s c fun i => F i - G i)
  | 0, s => rfl
  | c + 1, s => by
    have ih := subAll_pts F G c (s + 1)
    simp only [pts, List.range'_succ, List.map_cons, subAll, subKeys_enc] at ih ⊢
    rw [ih]

end Verif.Off
