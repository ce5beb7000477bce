import Verif.Lemmas.BpLoop
import Verif.Props.CurveCodec
import Mathlib.Data.Nat.Bitwise

/-! What the verifier computes, for proofs whose points are in the subgroup. -/

namespace Verif.Bp
open Verif Ed Key Sig Edwards Finset

/-- The scalar as the number in `[0, l)`. -/
def num (s : Fl) : ℤ := (s.val : ℤ)

theorem num_range (s : Fl) : 0 ≤ num s ∧ num s < l := ⟨Int.natCast_nonneg _, by rw [l_eq, num]; exact_mod_cast s.val_lt⟩
theorem cast_num (s : Fl) : ((num s : ℤ) : Fl) = s := by rw [num, Int.cast_natCast, ZMod.natCast_zmod_val]
theorem num_cast {a : ℤ} (h : 0 ≤ a ∧ a < l) : num (a : Fl) = a := eq_l (num_range _) h (cast_num _)

/-- The proof as bytes. -/
def bytes (p : Pf Fl Sub) : Proof :=
  ⟨p.V.map enc, enc p.A, enc p.S, enc p.T1, enc p.T2, encodeInt (num p.taux), encodeInt (num p.mu), p.L.map enc, p.R.map enc,
    encodeInt (num p.a), encodeInt (num p.b), encodeInt (num p.t)⟩

/-- The generators of the program. -/
noncomputable def gens (H : Bytes → Bytes) : Gens Sub := ⟨baseS, hS, gPt H, hGPt H⟩

/-- The challenges of the proof in the field. -/
def chs (H : Bytes → Bytes) (p : Proof) : Ch Fl :=
  ⟨(chY H p : ℤ), (chZ H p : ℤ), (chX H p : ℤ), (chXip H p : ℤ), (chWs H (chXip H p) (p.L.zip p.R)).map fun w : ℤ => (w : Fl)⟩

theorem reduced_num (s : Fl) : reduced (encodeInt (num s)) = some (num s) := by
  have h : decodeScalar (encodeInt (num s)) = some (num s) := by
    exact C35_scalar_roundtrip _ (num_range s).1 (num_range s).2
  rw [reduced, h, Option.bind_some, if_pos rfl]

theorem mash_two (H : Bytes → Bytes) (c : ℤ) (a b : Bytes) : mash H c [a, b] = hs H (encodeInt c ++ a ++ b) := by
  simp [mash]

theorem roundChallenges_eq (H : Bytes → Bytes) : ∀ (c : ℤ) (L R : List Bytes), L.length = R.length →
    roundChallenges H c L R = if ∀ w ∈ chWs H c (L.zip R), w ≠ 0 then some (chWs H c (L.zip R)) else none
  | c, [], R, _ => by rw [roundChallenges.eq_def]; simp [chWs]
  | c, L :: Ls, [], h => by simp at h
  | c, L :: Ls, R :: Rs, h => by
    rw [roundChallenges, List.zip_cons_cons, chWs, mash_two, roundChallenges_eq H _ Ls Rs (by simpa using h)]
    generalize hs H (encodeInt c ++ L ++ R) = w
    by_cases hw : w = 0
    · rw [if_pos hw, if_neg (by simp [hw])]
    · rw [if_neg hw]
      by_cases hr : ∀ x ∈ chWs H w (Ls.zip Rs), x ≠ 0
      · rw [if_pos hr, if_pos (by simpa [hw] using hr)]; rfl
      · rw [if_neg hr, if_neg (by simp only [List.mem_cons, forall_eq_or_imp]; exact fun h => hr h.2)]; rfl

theorem chWs_length (H : Bytes → Bytes) : ∀ (c : ℤ) (ps : List (Bytes × Bytes)), (chWs H c ps).length = ps.length
  | _, [] => rfl
  | c, (L, R) :: ps => by rw [chWs, List.length_cons, chWs_length H _ ps, List.length_cons]

theorem chWs_nn (H : Bytes → Bytes) : ∀ (c : ℤ) (ps : List (Bytes × Bytes)), ∀ w ∈ chWs H c ps, 0 ≤ w ∧ w < l
  | _, [], _, h => by simp [chWs] at h
  | c, (L, R) :: ps, w, h => by
    rw [chWs] at h
    rcases List.mem_cons.mp h with rfl | h
    · exact hs_range _ _
    · exact chWs_nn H _ ps w h

theorem muex_enc : ∀ (ps : List (ℤ × Sub)) (acc : Ext) (p : Sub), (∀ t ∈ ps, 0 ≤ t.1) → Rep acc (p : Point) →
    ∃ P, muex (ps.map fun t => (t.1, enc t.2)) acc = some P ∧ Rep P ((p + (ps.map fun t => (t.1 : Fl) • t.2).sum : Sub) : Point)
  | [], acc, p, _, h => ⟨acc, rfl, by simpa using h⟩
  | (s, r) :: ps, acc, p, hn, h => by
    obtain ⟨P, e, hP⟩ := muex_enc ps _ (p + (s : Fl) • r) (fun t ht => hn t (by simp [ht]))
      (rep_add h (rep_smulS (rep_sub_canon r) (hn (s, r) (by simp))))
    refine ⟨P, ?_, ?_⟩
    · rw [List.map_cons, muex, decode_enc]; exact e
    · rwa [List.map_cons, List.sum_cons, ← add_assoc]

theorem muex_enc0 (ps : List (ℤ × Sub)) (hn : ∀ t ∈ ps, 0 ≤ t.1) :
    ∃ P, muex (ps.map fun t => (t.1, enc t.2)) ident = some P ∧ encodePoint P = enc (ps.map fun t => (t.1 : Fl) • t.2).sum := by
  obtain ⟨P, e, h⟩ := muex_enc ps ident 0 hn rep_ident
  exact ⟨P, e, by rw [encode_rep h, zero_add]⟩

theorem and_shift (i k : ℕ) : i &&& (1 <<< k) = 0 ↔ ¬ i / 2 ^ k % 2 = 1 := by
  rw [Nat.shiftLeft_eq, one_mul, Nat.and_two_pow, Nat.testBit_eq_decide_div_mod_eq]
  have := Nat.two_pow_pos k
  by_cases h : i / 2 ^ k % 2 = 1 <;> simp [h]

theorem ghLoop_enc (i : ℕ) : ∀ (ws : List ℤ) (g h : ℤ),
    (((ghLoop i ws g h).1 : ℤ) : Fl) = g * coef (ws.map fun w : ℤ => (w : Fl)) i ∧
    (((ghLoop i ws g h).2 : ℤ) : Fl) = h * (coef (ws.map fun w : ℤ => (w : Fl)) i)⁻¹
  | [], g, h => by simp [ghLoop, coef]
  | w :: ws, g, h => by
    rw [ghLoop, List.map_cons, coef, List.length_map]
    by_cases hb : i / 2 ^ ws.length % 2 = 1
    · rw [if_neg ((and_shift i ws.length).not.mpr (not_not.mpr hb)), if_pos hb]
      obtain ⟨e1, e2⟩ := ghLoop_enc i ws (scMul g w) (scMul h (scInv w))
      rw [e1, e2, cast_scMul, cast_scMul, cast_scInv, mul_inv]
      exact ⟨by ring, by ring⟩
    · rw [if_pos ((and_shift i ws.length).mpr hb), if_neg hb]
      obtain ⟨e1, e2⟩ := ghLoop_enc i ws (scMul g (scInv w)) (scMul h w)
      rw [e1, e2, cast_scMul, cast_scMul, cast_scInv, mul_inv, inv_inv]
      exact ⟨by ring, by ring⟩

theorem kLoop_enc (z : ℤ) (n : ℕ) : ∀ (j : ℕ) (k : ℤ),
    ((kLoop z n j k : ℤ) : Fl) = k - ∑ i ∈ range n, (z : Fl) ^ (j + i + 2) * (2 ^ 64 - 1) := by
  induction n with
  | zero => intro j k; simp [kLoop]
  | succ n ih =>
    intro j k
    rw [kLoop, ih, cast_scMulsub, cast_pw, sum_range_succ']
    have : ∑ i ∈ range n, (z : Fl) ^ (j + 1 + i + 2) * (2 ^ 64 - 1) = ∑ i ∈ range n, (z : Fl) ^ (j + (i + 1) + 2) * (2 ^ 64 - 1) :=
      sum_congr rfl fun i _ => by congr 2; omega
    rw [this]
    push_cast
    ring

theorem singleLoop_enc (H : Bytes → Bytes) (gh : ℕ → ℤ × ℤ) (wz : ℤ) : ∀ (L : List ℕ) (p : Sub),
    singleLoop H gh wz L (enc p) = some (enc (p - (wz : Fl) • (L.map fun i => ((gh i).1 : Fl) • gPt H i + ((gh i).2 : Fl) • hGPt H i).sum))
  | [], p => by simp [singleLoop]
  | i :: L, p => by
    rw [singleLoop, gGen_enc, hGen_enc, scalarmultKey_enc _ (scMul_nn _ _), scalarmultKey_enc _ (scMul_nn _ _)]
    simp only [Option.bind_eq_bind, Option.bind_some, subKeys_enc]
    rw [singleLoop_enc H gh wz L]
    simp only [List.map_cons, List.sum_cons, cast_scMul]
    congr 2
    module

theorem chY_mash (H : Bytes → Bytes) (p : Proof) : mash H (hashVct H p.V) [p.A, p.S] = chY H p := by simp [mash, hashVct, chY]
theorem chX_mash (H : Bytes → Bytes) (p : Proof) : mash H (chZ H p) [encodeInt (chZ H p), p.T1, p.T2] = chX H p := by simp [mash, chX]
theorem chXip_mash (H : Bytes → Bytes) (p : Proof) : mash H (chX H p) [encodeInt (chX H p), p.taux, p.mu, p.t] = chXip H p := by
  simp [mash, chXip]

/-- The aggregates with their group values. -/
structure AggOk (g : Agg) (n : ℕ) (P : Sub) (f4 f5 : ℕ → Fl) : Prop where
  acc : g.acc = enc P
  z4 : SV g.z4 (List.range n) f4
  z5 : SV g.z5 (List.range n) f5

/-- The point the verifier will compare with the identity, if it stopped now. -/
noncomputable def aggVal (H : Bytes → Bytes) (g : Agg) (n : ℕ) (P : Sub) (f4 f5 : ℕ → Fl) : Sub :=
  P + ((g.z3 : Fl) - g.y1) • hS + ((g.y0 : Fl) - g.z1) • baseS + ∑ i ∈ range n, (f4 i • gPt H i + f5 i • hGPt H i)

/-- The scalars of the proof as the first loop reads them. -/
def scalarsOf (p : Pf Fl Sub) : Scalars := ⟨num p.taux, num p.mu, num p.a, num p.b, num p.t⟩

/-- What the verifier checks of one proof besides the equations. -/
def StepOk (H : Bytes → Bytes) (p : Pf Fl Sub) : Prop :=
  p.L.length = 6 + logM p.V.length ∧ p.V.length ≤ 2 ^ logM p.V.length + 1 ∧ Nonzero H (bytes p)

theorem subScaled_enc {m : List ℤ} {n : ℕ} {f : ℕ → Fl} (h : SV m (List.range n) f) (k : ℕ → ℤ) (wz : ℤ) (MN : ℕ) :
    SV (subScaled k wz MN m) (List.range n) fun i => if i < MN then f i - k i * wz else f i := by
  obtain ⟨h1, h2⟩ := h
  have hl : m.length = n := by simpa using congrArg List.length h2
  refine ⟨fun x hx => ?_, ?_⟩
  · rw [subScaled] at hx
    obtain ⟨i, hi, rfl⟩ := List.mem_iff_getElem.mp hx
    rw [List.getElem_mapIdx]
    split
    · exact scMulsub_nn _ _ _
    · exact h1 _ (List.getElem_mem _)
  · refine List.ext_getElem (by simp [subScaled, hl]) fun i h3 h4 => ?_
    have hi : i < n := by simpa using h4
    have e : ((m[i]'(by omega) : ℤ) : Fl) = f i := by
      have := congrArg (fun x => x[i]?) h2
      simpa [List.getElem?_eq_getElem (show i < m.length by omega), hi] using this
    simp only [subScaled, List.getElem_map, List.getElem_mapIdx, List.getElem_range]
    split
    · rw [cast_scMulsub, e]
    · exact e

theorem sum_subScaled (H : Bytes → Bytes) {n MN : ℕ} (hn : MN ≤ n) (f4 f5 g h : ℕ → Fl) (w : Fl) :
    ∑ i ∈ range n, ((if i < MN then f4 i - g i * w else f4 i) • gPt H i + (if i < MN then f5 i - h i * w else f5 i) • hGPt H i) =
    ∑ i ∈ range n, (f4 i • gPt H i + f5 i • hGPt H i) - w • ∑ i ∈ range MN, (g i • gPt H i + h i • hGPt H i) := by
  obtain ⟨k, rfl⟩ := Nat.exists_eq_add_of_le hn
  rw [sum_range_add, sum_range_add, smul_sum]
  have e1 : ∑ i ∈ range MN, ((if i < MN then f4 i - g i * w else f4 i) • gPt H i + (if i < MN then f5 i - h i * w else f5 i) • hGPt H i) =
      ∑ i ∈ range MN, (f4 i • gPt H i + f5 i • hGPt H i) - ∑ i ∈ range MN, w • (g i • gPt H i + h i • hGPt H i) := by
    rw [← sum_sub_distrib]
    refine sum_congr rfl fun i hi => ?_
    rw [if_pos (mem_range.mp hi), if_pos (mem_range.mp hi)]
    module
  have e2 : ∑ i ∈ range k, ((if MN + i < MN then f4 (MN + i) - g (MN + i) * w else f4 (MN + i)) • gPt H (MN + i) +
      (if MN + i < MN then f5 (MN + i) - h (MN + i) * w else f5 (MN + i)) • hGPt H (MN + i)) =
      ∑ i ∈ range k, (f4 (MN + i) • gPt H (MN + i) + f5 (MN + i) • hGPt H (MN + i)) :=
    sum_congr rfl fun i _ => by rw [if_neg (by omega), if_neg (by omega)]
  rw [e1, e2]; abel

theorem ghScalars_enc (a b y z : ℤ) (ws : List ℤ) (i : ℕ) :
    (((ghScalars a b y z ws i).1 : ℤ) : Fl) = a * coef (ws.map fun w : ℤ => (w : Fl)) i + z ∧
    (((ghScalars a b y z ws i).2 : ℤ) : Fl) = b * ((y : Fl)⁻¹) ^ i * (coef (ws.map fun w : ℤ => (w : Fl)) i)⁻¹ -
      ((z : Fl) * (y : Fl) ^ i + (z : Fl) ^ (2 + i / 64) * 2 ^ (i % 64)) * ((y : Fl)⁻¹) ^ i := by
  obtain ⟨e1, e2⟩ := ghLoop_enc i ws a (scMul b (ypAt (scInv y) i))
  simp only [ghScalars, cast_scAdd, cast_scMulsub, cast_scMuladd, cast_scMul, e1, e2, cast_ypAt, cast_scInv, cast_pw, true_and]
  push_cast
  ring

theorem lr_pairs (wz8 : ℤ) : ∀ (ws : List ℤ) (L R : List Sub),
    ((ws.zip ((L.map enc).zip (R.map enc))).map fun w =>
      [(scMul (scMul w.1 w.1) wz8, w.2.1), (scMul (scMul (scInv w.1) (scInv w.1)) wz8, w.2.2)]).flatten =
    (((ws.zip (L.zip R)).map fun w =>
      [(scMul (scMul w.1 w.1) wz8, w.2.1), (scMul (scMul (scInv w.1) (scInv w.1)) wz8, w.2.2)]).flatten).map fun t => (t.1, enc t.2)
  | [], _, _ => rfl
  | _ :: _, [], _ => rfl
  | _ :: _, _ :: _, [] => rfl
  | w :: ws, L :: Ls, R :: Rs => by
    simp only [List.map_cons, List.zip_cons_cons, List.flatten_cons, List.map_append, lr_pairs wz8 ws Ls Rs, List.map_nil]

theorem lr_sum (wz : ℤ) : ∀ (ws : List ℤ) (L R : List Sub),
    ((((ws.zip (L.zip R)).map fun w =>
      [(scMul (scMul w.1 w.1) (scMul wz 8), w.2.1), (scMul (scMul (scInv w.1) (scInv w.1)) (scMul wz 8), w.2.2)]).flatten).map
        fun t => ((t.1 : ℤ) : Fl) • t.2).sum = (wz : Fl) • lrSum (ws.map fun w : ℤ => (w : Fl)) L R
  | [], _, _ => by simp [lrSum]
  | _ :: _, [], _ => by simp [lrSum]
  | _ :: _, _ :: _, [] => by simp [lrSum]
  | w :: ws, L :: Ls, R :: Rs => by
    have := lr_sum wz ws Ls Rs
    simp only [lrSum, List.map_cons, List.zip_cons_cons, List.flatten_cons, List.map_append, List.sum_append, List.sum_cons,
      List.map_nil, List.sum_nil] at this ⊢
    rw [this]
    simp only [cast_scMul, cast_scInv]
    push_cast
    module

theorem lr_nn (wz8 : ℤ) (ws : List ℤ) (LR : List (Sub × Sub)) :
    ∀ t ∈ ((ws.zip LR).map fun w =>
      [(scMul (scMul w.1 w.1) wz8, w.2.1), (scMul (scMul (scInv w.1) (scInv w.1)) wz8, w.2.2)]).flatten, 0 ≤ t.1 := by
  intro t ht
  obtain ⟨x, hx, ht⟩ := List.mem_flatten.mp ht
  obtain ⟨w, _, rfl⟩ := List.mem_map.mp hx
  simp only [List.mem_cons, List.not_mem_nil, or_false] at ht
  rcases ht with rfl | rfl <;> exact scMul_nn _ _

/-- The delta of the program. -/
theorem delta_enc (y z : ℤ) {m : ℕ} (hm : 0 < m) :
    ((scMuladd z (powerSum y (m * 64)) (kLoop z m 1 (scMulsub (pw z 2) (powerSum y (m * 64)) 0)) : ℤ) : Fl) = delta m (y : Fl) (z : Fl) := by
  rw [cast_scMuladd, kLoop_enc, cast_scMulsub, cast_powerSum y (by omega), cast_pw, delta]
  have : ∑ i ∈ range m, (z : Fl) ^ (1 + i + 2) * (2 ^ 64 - 1) = ∑ j ∈ range m, (z : Fl) ^ (j + 3) * (2 ^ 64 - 1) :=
    sum_congr rfl fun i _ => by congr 2; omega
  rw [this]
  push_cast
  ring

theorem vpairs (z wy x wz : ℤ) (V : List Sub) (T1 T2 A S : Sub) :
    ((V.map enc).zipIdx.map fun v => (scMul (pw z (v.2 + 2)) (scMul wy 8), v.1)) ++
      [(scMul x (scMul wy 8), enc T1), (scMul (scMul x x) (scMul wy 8), enc T2), (scMul wz 8, enc A), (scMul x (scMul wz 8), enc S)] =
    ((V.zipIdx.map fun v => (scMul (pw z (v.2 + 2)) (scMul wy 8), v.1)) ++
      [(scMul x (scMul wy 8), T1), (scMul (scMul x x) (scMul wy 8), T2), (scMul wz 8, A), (scMul x (scMul wz 8), S)]).map
        fun t => (t.1, enc t.2) := by
  rw [List.zipIdx_map, List.map_append, List.map_map, List.map_map]
  rfl

theorem vsum (z wy x wz : ℤ) (V : List Sub) (T1 T2 A S : Sub) :
    (((V.zipIdx.map fun v => (scMul (pw z (v.2 + 2)) (scMul wy 8), v.1)) ++
      [(scMul x (scMul wy 8), T1), (scMul (scMul x x) (scMul wy 8), T2), (scMul wz 8, A), (scMul x (scMul wz 8), S)]).map
        fun t => ((t.1 : ℤ) : Fl) • t.2).sum =
    (wy : Fl) • (8 : Fl) • ((V.zipIdx.map fun v => (z : Fl) ^ (v.2 + 2) • v.1).sum + (x : Fl) • T1 + (x : Fl) ^ 2 • T2) +
      (wz : Fl) • (8 : Fl) • (A + (x : Fl) • S) := by
  have e : ((V.zipIdx.map fun v => (scMul (pw z (v.2 + 2)) (scMul wy 8), v.1)).map fun t => ((t.1 : ℤ) : Fl) • t.2).sum =
      (wy : Fl) • (8 : Fl) • (V.zipIdx.map fun v => (z : Fl) ^ (v.2 + 2) • v.1).sum := by
    generalize V.zipIdx = vs
    induction vs with
    | nil => simp
    | cons v vs ih =>
      simp only [List.map_cons, List.sum_cons] at ih ⊢
      rw [ih]
      simp only [cast_scMul, cast_pw]
      push_cast
      module
  rw [List.map_append, List.sum_append, e]
  simp only [List.map_cons, List.map_nil, List.sum_cons, List.sum_nil, cast_scMul]
  push_cast
  module

theorem vnn (z wy x wz : ℤ) (V : List Sub) (T1 T2 A S : Sub) :
    ∀ t ∈ ((V.zipIdx.map fun v => (scMul (pw z (v.2 + 2)) (scMul wy 8), v.1)) ++
      [(scMul x (scMul wy 8), T1), (scMul (scMul x x) (scMul wy 8), T2), (scMul wz 8, A), (scMul x (scMul wz 8), S)]), 0 ≤ t.1 := by
  intro t ht
  rcases List.mem_append.mp ht with ht | ht
  · obtain ⟨v, _, rfl⟩ := List.mem_map.mp ht
    exact scMul_nn _ _
  · simp only [List.mem_cons, List.not_mem_nil, or_false] at ht
    rcases ht with rfl | rfl | rfl | rfl <;> exact scMul_nn _ _

theorem verifyStep_enc (H : Bytes → Bytes) (single : Bool) (p : Pf Fl Sub) (hLR : p.L.length = p.R.length) (wy wz : ℤ) {g : Agg} {n : ℕ} {P : Sub}
    {f4 f5 : ℕ → Fl} (hg : AggOk g n P f4 f5) (hn : single = false → 2 ^ logM p.V.length * 64 ≤ n) (hok : StepOk H p) :
    ∃ g' P' f4' f5', verifyStep H single (bytes p) (scalarsOf p) wy wz g = some g' ∧ AggOk g' n P' f4' f5' ∧
      aggVal H g' n P' f4' f5' = aggVal H g n P f4 f5 + ((wy : Fl) • eq1 (gens H) (2 ^ logM p.V.length) (chs H (bytes p)) p +
        (wz : Fl) • eq2 (gens H) (2 ^ logM p.V.length) (chs H (bytes p)) p) := by
  obtain ⟨hL, hV, hy, hz, hx, hxip, hws⟩ := hok
  set y := chY H (bytes p) with ey
  set z := chZ H (bytes p) with ez
  set x := chX H (bytes p) with exx
  set xip := chXip H (bytes p) with exip
  set ws := chWs H xip ((bytes p).L.zip (bytes p).R) with ews
  set lg := logM p.V.length with elg
  have lV : (bytes p).V.length = p.V.length := by simp [bytes]
  have lL : (bytes p).L.length = p.L.length := by simp [bytes]
  have lR : (bytes p).R.length = p.R.length := by simp [bytes]
  obtain ⟨E1, m1, v1⟩ := muex_enc0 _ (vnn z wy x wz p.V p.T1 p.T2 p.A p.S)
  rw [← vpairs, vsum] at *
  obtain ⟨E2, m2, v2⟩ := muex_enc0 _ (lr_nn (scMul wz 8) ws (p.L.zip p.R))
  rw [← lr_pairs, lr_sum] at *
  have hrc : roundChallenges H xip (bytes p).L (bytes p).R = some ws := by
    rw [roundChallenges_eq H _ _ _ (by rw [lL, lR, hLR]), if_pos hws]
  have hzz : hs H (encodeInt y) = z := rfl
  have hgh := ghScalars_enc (num p.a) (num p.b) y z ws
  set gh := ghScalars (num p.a) (num p.b) y z ws with egh
  set c := chs H (bytes p) with ec
  have cy : c.y = (y : Fl) := rfl
  have cz : c.z = (z : Fl) := rfl
  have cx : c.x = (x : Fl) := rfl
  have cxip : c.xip = (xip : Fl) := rfl
  have cws : c.ws = ws.map fun w : ℤ => (w : Fl) := rfl
  -- the sum over the generators
  have egen : ∑ i ∈ range (2 ^ lg * 64), (((gh i).1 : Fl) • gPt H i + ((gh i).2 : Fl) • hGPt H i) =
      ∑ i ∈ range (2 ^ lg * 64), ((p.a * coef c.ws i + c.z) • (gens H).Gi i +
        (p.b * (c.y⁻¹) ^ i * (coef c.ws i)⁻¹ - (c.z * c.y ^ i + c.z ^ (2 + i / 64) * 2 ^ (i % 64)) * (c.y⁻¹) ^ i) • (gens H).Hi i) := by
    refine sum_congr rfl fun i _ => ?_
    rw [(hgh i).1, (hgh i).2, cast_num, cast_num]
    rfl
  have hstep : ∀ acc2 z4 z5, accGens H single gh wz (2 ^ lg * 64)
        (enc (P + ((wy : Fl) • (8 : Fl) • ((p.V.zipIdx.map fun v => (z : Fl) ^ (v.2 + 2) • v.1).sum + (x : Fl) • p.T1 + (x : Fl) ^ 2 • p.T2) +
          (wz : Fl) • (8 : Fl) • (p.A + (x : Fl) • p.S)))) = some (enc acc2) →
      (if single then g.z4 else subScaled (fun i => (gh i).1) wz (2 ^ lg * 64) g.z4) = z4 →
      (if single then g.z5 else subScaled (fun i => (gh i).2) wz (2 ^ lg * 64) g.z5) = z5 →
      verifyStep H single (bytes p) (scalarsOf p) wy wz g = some ⟨scMuladd (num p.mu) wz g.z1,
        scMuladd (scMul (scMulsub (num p.a) (num p.b) (num p.t)) xip) wz g.z3, z4, z5, scMulsub (num p.taux) wy g.y0,
        scMuladd (scSub (num p.t) (scMuladd z (powerSum y (2 ^ lg * 64)) (kLoop z (2 ^ lg) 1 (scMulsub (pw z 2) (powerSum y (2 ^ lg * 64)) 0))))
          wy g.y1, enc (acc2 + (wz : Fl) • lrSum (ws.map fun w : ℤ => (w : Fl)) p.L p.R)⟩ := by
    intro acc2 z4 z5 h1 h2 h3
    unfold verifyStep
    dsimp only
    rw [lV, lL, ← elg, if_neg (not_not.mpr hL), chY_mash, ← ey, if_neg hy, hzz, if_neg hz, chX_mash, ← exx, if_neg hx, chXip_mash,
      ← exip, if_neg hxip, if_neg (by omega)]
    have m1' : muex (((bytes p).V.zipIdx.map fun v => (scMul (pw z (v.2 + 2)) (scMul wy 8), v.1)) ++
      [(scMul x (scMul wy 8), (bytes p).T1), (scMul (scMul x x) (scMul wy 8), (bytes p).T2), (scMul wz 8, (bytes p).A),
        (scMul x (scMul wz 8), (bytes p).S)]) ident = some E1 := m1
    rw [m1']
    simp only [Option.bind_eq_bind, Option.bind_some, hg.acc, v1, addKeys_enc, hrc]
    rw [show ghScalars (scalarsOf p).a (scalarsOf p).b y z ws = gh from rfl, h1, h2, h3]
    have m2' : muex ((ws.zip ((bytes p).L.zip (bytes p).R)).map fun w => [(scMul (scMul w.1 w.1) (scMul wz 8), w.2.1),
      (scMul (scMul (scInv w.1) (scInv w.1)) (scMul wz 8), w.2.2)]).flatten ident = some E2 := m2
    simp only [Option.bind_some, m2', v2, addKeys_enc]
    rfl
  have hd := delta_enc y z (Nat.two_pow_pos lg)
  cases single with
  | true =>
    refine ⟨_, _, f4, f5, hstep _ _ _ (by rw [accGens, if_pos rfl, singleLoop_enc, sum_map_range, egen]) rfl rfl, ⟨rfl, hg.z4, hg.z5⟩, ?_⟩
    simp only [aggVal, eq1, eq2, cast_scMuladd, cast_scMul, cast_scMulsub, cast_scSub, cast_num, hd, cy, cz, cx, cxip, cws]
    simp only [show (gens H).G = baseS from rfl, show (gens H).U = hS from rfl]
    module
  | false =>
    refine ⟨_, _, _, _, hstep _ _ _ (by rw [accGens, if_neg (by simp)]) rfl rfl, ⟨rfl, subScaled_enc hg.z4 _ wz _, subScaled_enc hg.z5 _ wz _⟩, ?_⟩
    simp only [aggVal]
    rw [sum_subScaled H (hn rfl), egen]
    simp only [eq1, eq2, cast_scMuladd, cast_scMul, cast_scMulsub, cast_scSub, cast_num, hd, cy, cz, cx, cxip, cws]
    simp only [show (gens H).G = baseS from rfl, show (gens H).U = hS from rfl]
    module

end Verif.Bp
