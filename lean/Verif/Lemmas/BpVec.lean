import Verif.Lemmas.BpGens

/-! The vector operations of Bulletproofs as sums in the group. -/

namespace Verif.Bp
open Verif Ed Key Sig Edwards Finset

/-- The scalars `a` are non-negative and stand for `f` on the indices `L`. -/
structure SV (a : List ℤ) (L : List ℕ) (f : ℕ → Fl) : Prop where
  nn : ∀ x ∈ a, 0 ≤ x
  eq : a.map (fun x : ℤ => (x : Fl)) = L.map f

/-- The keys `G` encode `g` on the indices `L`. -/
def PV (G : List Bytes) (L : List ℕ) (g : ℕ → Sub) : Prop := G = L.map fun i => enc (g i)

theorem SV.length {a : List ℤ} {L : List ℕ} {f : ℕ → Fl} (h : SV a L f) : a.length = L.length := by
  have := congrArg List.length h.eq
  simpa using this

theorem SV.nil {L : List ℕ} {f : ℕ → Fl} (h : SV [] L f) : L = [] := List.eq_nil_of_length_eq_zero h.length.symm

theorem SV.cons {a : List ℤ} {x : ℤ} {i : ℕ} {L : List ℕ} {f : ℕ → Fl} (h : SV (x :: a) (i :: L) f) : 0 ≤ x ∧ (x : Fl) = f i ∧ SV a L f := by
  obtain ⟨h1, h2⟩ := h
  simp only [List.map_cons, List.cons.injEq] at h2
  exact ⟨h1 x (by simp), h2.1, ⟨fun y hy => h1 y (by simp [hy]), h2.2⟩⟩

theorem SV.of_map {L : List ℕ} {f : ℕ → Fl} (g : ℕ → ℤ) (h : ∀ i, 0 ≤ g i) (e : ∀ i, (g i : Fl) = f i) : SV (L.map g) L f := by
  refine ⟨fun x hx => ?_, ?_⟩
  · obtain ⟨i, _, rfl⟩ := List.mem_map.mp hx
    exact h i
  · rw [List.map_map]; exact List.map_congr_left fun i _ => e i

theorem range_take (n : ℕ) : (List.range (n + n)).take n = List.range n := by
  rw [List.take_range]; congr 1; omega

theorem range_drop (n : ℕ) : (List.range (n + n)).drop n = (List.range n).map (n + ·) := by
  rw [List.range_add, List.drop_left' (by simp)]

theorem SV.take {a : List ℤ} {n : ℕ} {f : ℕ → Fl} (h : SV a (List.range (n + n)) f) : SV (a.take n) (List.range n) f :=
  ⟨fun x hx => h.nn x (List.mem_of_mem_take hx), by rw [List.map_take, h.eq, ← List.map_take, range_take]⟩

theorem SV.drop {a : List ℤ} {n : ℕ} {f : ℕ → Fl} (h : SV a (List.range (n + n)) f) : SV (a.drop n) (List.range n) fun i => f (n + i) :=
  ⟨fun x hx => h.nn x (List.mem_of_mem_drop hx), by rw [List.map_drop, h.eq, ← List.map_drop, range_drop, List.map_map]; rfl⟩

theorem PV.take {G : List Bytes} {n : ℕ} {g : ℕ → Sub} (h : PV G (List.range (n + n)) g) : PV (G.take n) (List.range n) g := by
  rw [PV, h, ← List.map_take, range_take]

theorem PV.drop {G : List Bytes} {n : ℕ} {g : ℕ → Sub} (h : PV G (List.range (n + n)) g) : PV (G.drop n) (List.range n) fun i => g (n + i) := by
  rw [PV, h, ← List.map_drop, range_drop, List.map_map]; rfl

theorem PV.length {G : List Bytes} {L : List ℕ} {g : ℕ → Sub} (h : PV G L g) : G.length = L.length := by rw [h]; simp

theorem sum_map_range {A : Type*} [AddCommMonoid A] (f : ℕ → A) (n : ℕ) : ((List.range n).map f).sum = ∑ i ∈ range n, f i := by
  induction n with
  | zero => rfl
  | succ n ih => rw [List.range_succ, List.map_append, List.sum_append, ih, sum_range_succ]; simp

theorem vecExpLoop_enc (L : List ℕ) (g h : ℕ → Sub) (f k : ℕ → Fl) : ∀ (A B : List Bytes) (a b : List ℤ) (acc : Ext) (p : Sub),
    PV A L g → PV B L h → SV a L f → SV b L k → Rep acc (p : Point) →
    ∃ P, vecExpLoop A B a b acc = some P ∧ Rep P ((p + (L.map fun i => f i • g i + k i • h i).sum : Sub) : Point) := by
  induction L with
  | nil =>
    intro A B a b acc p _ _ ha _ hp
    have : a = [] := List.eq_nil_of_length_eq_zero ha.length
    subst this
    exact ⟨acc, by rw [vecExpLoop.eq_def], by simpa using hp⟩
  | cons i L ih =>
    intro A B a b acc p hA hB ha hb hp
    subst hA hB
    obtain ⟨x, a, rfl⟩ := List.exists_cons_of_length_eq_add_one (by rw [ha.length]; rfl)
    obtain ⟨y, b, rfl⟩ := List.exists_cons_of_length_eq_add_one (by rw [hb.length]; rfl)
    obtain ⟨x0, ex, ha⟩ := ha.cons
    obtain ⟨y0, ey, hb⟩ := hb.cons
    obtain ⟨P, e, hP⟩ := ih _ _ a b _ (p + ((x : Fl) • g i + (y : Fl) • h i)) rfl rfl ha hb
      (rep_add hp (rep_addKeys3S (rep_sub_canon (g i)) (rep_sub_canon (h i)) x0 y0))
    refine ⟨P, ?_, ?_⟩
    · simp only [List.map_cons, vecExpLoop, decode_enc]
      exact e
    · rw [ex, ey] at hP
      rwa [List.map_cons, List.sum_cons, ← add_assoc]

theorem vecExp_enc {n : ℕ} {g h : ℕ → Sub} {f k : ℕ → Fl} {A B : List Bytes} {a b : List ℤ} (hA : PV A (List.range n) g)
    (hB : PV B (List.range n) h) (ha : SV a (List.range n) f) (hb : SV b (List.range n) k) :
    vecExp A B a b = some (enc (∑ i ∈ range n, (f i • g i + k i • h i))) := by
  obtain ⟨P, e, hP⟩ := vecExpLoop_enc _ g h f k A B a b ident 0 hA hB ha hb rep_ident
  rw [vecExp, e, Option.map_some, encode_rep hP, zero_add, sum_map_range]

theorem foldl_enc (L : List ℕ) (f k : ℕ → Fl) : ∀ (a b : List ℤ) (acc : ℤ), SV a L f → SV b L k →
    (((a.zip b).foldl (fun acc p => scMuladd p.1 p.2 acc) acc : ℤ) : Fl) = acc + (L.map fun i => f i * k i).sum := by
  induction L with
  | nil =>
    intro a b acc ha _
    have : a = [] := List.eq_nil_of_length_eq_zero ha.length
    subst this
    simp
  | cons i L ih =>
    intro a b acc ha hb
    obtain ⟨x, a, rfl⟩ := List.exists_cons_of_length_eq_add_one (by rw [ha.length]; rfl)
    obtain ⟨y, b, rfl⟩ := List.exists_cons_of_length_eq_add_one (by rw [hb.length]; rfl)
    obtain ⟨-, ex, ha⟩ := ha.cons
    obtain ⟨-, ey, hb⟩ := hb.cons
    rw [List.zip_cons_cons, List.foldl_cons, ih a b _ ha hb, cast_scMuladd, ex, ey, List.map_cons, List.sum_cons, add_assoc]

theorem foldl_range (ps : List (ℤ × ℤ)) (acc : ℤ) (h : 0 ≤ acc ∧ acc < l) :
    0 ≤ ps.foldl (fun acc p => scMuladd p.1 p.2 acc) acc ∧ ps.foldl (fun acc p => scMuladd p.1 p.2 acc) acc < l := by
  induction ps generalizing acc with
  | nil => exact h
  | cons p ps ih => exact ih _ (emod_l_range _)

theorem innerProduct_enc {n : ℕ} {f k : ℕ → Fl} {a b : List ℤ} (ha : SV a (List.range n) f) (hb : SV b (List.range n) k) :
    ∃ c, innerProduct a b = some c ∧ (c : Fl) = ∑ i ∈ range n, f i * k i := by
  refine ⟨_, by rw [innerProduct, if_neg (by rw [ha.length, hb.length]; simp)], ?_⟩
  rw [foldl_enc _ f k a b 0 ha hb, sum_map_range]; simp

theorem foldKeys_enc (L : List ℕ) (g h : ℕ → Sub) {a b : ℤ} (ha : 0 ≤ a) (hb : 0 ≤ b) :
    foldKeys a b (L.map fun i => enc (g i)) (L.map fun i => enc (h i)) = some (L.map fun i => enc ((a : Fl) • g i + (b : Fl) • h i)) := by
  induction L with
  | nil => rfl
  | cons i L ih => simp only [List.map_cons, foldKeys, foldKey_enc ha hb, ih]

theorem hadamardFold_enc {n : ℕ} {g : ℕ → Sub} {G : List Bytes} (hG : PV G (List.range (n + n)) g) {w winv : ℤ} (hw : 0 ≤ w) (hwi : 0 ≤ winv)
    (hinv : (winv : Fl) = (w : Fl)⁻¹) : ∃ G', hadamardFold G w winv = some G' ∧ PV G' (List.range n) (foldP (w : Fl) n g) := by
  refine ⟨_, ?_, rfl⟩
  have hl : G.length / 2 = n := by rw [hG.length, List.length_range]; omega
  have h1 := hG.take
  have h2 := hG.drop
  unfold PV at h1 h2
  rw [hadamardFold, hl, h1, h2, foldKeys_enc _ _ _ hw hwi, hinv]
  rfl

theorem zipFold_enc (L : List ℕ) (f k : ℕ → Fl) (w wi : ℤ) : ∀ (a b : List ℤ), SV a L f → SV b L k →
    SV (a.zipWith (fun lo hi => scAdd (scMul lo w) (scMul hi wi)) b) L fun i => w * f i + wi * k i := by
  induction L with
  | nil =>
    intro a b ha _
    have : a = [] := List.eq_nil_of_length_eq_zero ha.length
    subst this
    exact ⟨by simp, by simp⟩
  | cons i L ih =>
    intro a b ha hb
    obtain ⟨x, a, rfl⟩ := List.exists_cons_of_length_eq_add_one (by rw [ha.length]; rfl)
    obtain ⟨y, b, rfl⟩ := List.exists_cons_of_length_eq_add_one (by rw [hb.length]; rfl)
    obtain ⟨-, ex, ha⟩ := ha.cons
    obtain ⟨-, ey, hb⟩ := hb.cons
    obtain ⟨i1, i2⟩ := ih a b ha hb
    refine ⟨fun z hz => ?_, ?_⟩
    · rcases List.mem_cons.mp hz with rfl | hz
      · exact scAdd_nn _ _
      · exact i1 z hz
    · rw [List.zipWith_cons_cons, List.map_cons, List.map_cons, i2, cast_scAdd, cast_scMul, cast_scMul, ex, ey]
      congr 1
      ring

theorem scalarFold_enc {n : ℕ} {f : ℕ → Fl} {a : List ℤ} (ha : SV a (List.range (n + n)) f) {w winv : ℤ} (hinv : (winv : Fl) = (w : Fl)⁻¹) :
    SV (scalarFold a w winv) (List.range n) (foldS (w : Fl) n f) := by
  have hl : a.length / 2 = n := by rw [ha.length, List.length_range]; omega
  have := zipFold_enc _ _ _ w winv _ _ ha.take ha.drop
  rw [hinv] at this
  rw [scalarFold, hl]
  exact this

/-! ## Powers -/

theorem cast_pw (x : ℤ) : ∀ i, ((pw x i : ℤ) : Fl) = (x : Fl) ^ i
  | 0 => by simp [pw]
  | 1 => by simp [pw]
  | i + 2 => by rw [pw, cast_scMul, cast_pw x (i + 1)]; ring

theorem pw_nn {x : ℤ} (hx : 0 ≤ x) : ∀ i, 0 ≤ pw x i
  | 0 => by simp [pw]
  | 1 => by simpa [pw] using hx
  | _ + 2 => scMul_nn _ _

theorem cast_ztAt (z : ℤ) (j : ℕ) : ((ztAt z j : ℤ) : Fl) = (z : Fl) ^ (2 + j) := by
  induction j with
  | zero => rw [ztAt, cast_scMul]; ring
  | succ j ih => rw [ztAt, cast_scMul, ih]; ring

theorem cast_p2At (i : ℕ) : ((p2At i : ℤ) : Fl) = 2 ^ i := by
  induction i with
  | zero => simp [p2At]
  | succ i ih => rw [p2At, cast_scMul, ih]; push_cast; ring

theorem cast_ypAt (y : ℤ) (i : ℕ) : ((ypAt y i : ℤ) : Fl) = (y : Fl) ^ i := by
  induction i with
  | zero => simp [ypAt]
  | succ i ih => rw [ypAt, cast_scMul, ih]; ring

theorem cast_powerSumLoop (x : ℤ) (n : ℕ) : ∀ (k : ℕ) (cur acc : ℤ), (cur : Fl) = (x : Fl) ^ k → (acc : Fl) = ∑ i ∈ range (k + 1), (x : Fl) ^ i →
    ((powerSumLoop x n cur acc : ℤ) : Fl) = ∑ i ∈ range (k + 1 + n), (x : Fl) ^ i := by
  induction n with
  | zero => intro k cur acc _ h; exact h
  | succ n ih =>
    intro k cur acc h1 h2
    have e : ((scMul cur x : ℤ) : Fl) = (x : Fl) ^ (k + 1) := by rw [cast_scMul, h1, pow_succ]
    rw [powerSumLoop, ih (k + 1) _ _ e (by rw [cast_scAdd, h2, e, sum_range_succ _ (k + 1)]), show k + 1 + 1 + n = k + 1 + (n + 1) by omega]

theorem cast_powerSum (x : ℤ) {n : ℕ} (hn : 2 ≤ n) : ((powerSum x n : ℤ) : Fl) = ∑ i ∈ range n, (x : Fl) ^ i := by
  rw [powerSum, if_neg (by omega), cast_powerSumLoop x (n - 2) 1 x _ (by simp) (by rw [cast_scAdd, sum_range_succ, sum_range_succ]; simp)]
  congr 2; omega

end Verif.Bp
