import Verif.Model.Fold
import Verif.Lemmas.BpGens

/-!
C126: folding a vector in place, into another vector or from two vectors gives the same as the mathematical fold.
-/

namespace Verif.Bp
open Verif Ed Key Sig

/-- The fold of two vectors of equal length, element by element. -/
def zipFold {α : Type} (f : α → α → Option α) : List α → List α → Option (List α)
  | lo :: los, hi :: his => (f lo hi).bind fun z => (zipFold f los his).map fun zs => z :: zs
  | _, _ => some []

theorem get_mid {α : Type} (pre : List α) (x : α) (post : List α) {i : ℕ} (hi : i = pre.length) : (pre ++ x :: post)[i]? = some x := by
  subst hi; simp

theorem set_mid {α : Type} (pre : List α) (x y : α) (post : List α) {i : ℕ} (hi : i = pre.length) : (pre ++ x :: post).set i y = pre ++ y :: post := by
  subst hi; simp

theorem loop_in_place {α : Type} (f : α → α → Option α) (h : ℕ) : ∀ (los his pre hpre post : List α) (i : ℕ), i = pre.length → hpre.length = i →
    los.length = his.length → i + los.length = h →
    foldLoop f h 0 none 0 los.length i ⟨pre ++ (los ++ (hpre ++ (his ++ post))), none⟩ =
      (zipFold f los his).map fun out => ⟨pre ++ (out ++ (hpre ++ (his ++ post))), none⟩
  | [], [], pre, hpre, post, i, _, _, _, _ => rfl
  | lo :: los, hi :: his, pre, hpre, post, i, h1, h2, h3, h4 => by
    simp only [List.length_cons] at h3 h4
    rw [List.length_cons, foldLoop, List.cons_append, get_mid pre lo _ h1]
    have e : upper none 0 h (pre ++ lo :: (los ++ (hpre ++ (hi :: his ++ post)))) i = some hi := by
      unfold upper
      rw [show pre ++ lo :: (los ++ (hpre ++ (hi :: his ++ post))) = (pre ++ lo :: (los ++ hpre)) ++ hi :: (his ++ post) by simp]
      exact get_mid _ _ _ (by simp; omega)
    dsimp only
    rw [e]
    dsimp only
    rw [zipFold]
    cases hf : f lo hi with
    | none => rfl
    | some z =>
      rw [Option.bind_some, Option.bind_some]
      unfold Mem.write
      dsimp only
      rw [if_pos (by simp; omega), Option.bind_some, set_mid pre lo z _ (by omega)]
      have ih := loop_in_place f h los his (pre ++ [z]) (hpre ++ [hi]) post (i + 1) (by simp [h1]) (by simp [h2]) (by omega) (by omega)
      simp only [List.append_assoc, List.singleton_append] at ih
      rw [List.cons_append, ih, Option.map_map]
      congr 1
  | [], _ :: _, _, _, _, _, _, _, h3, _ => by simp at h3
  | _ :: _, [], _, _, _, _, _, _, h3, _ => by simp at h3

theorem loop_fresh {α : Type} (f : α → α → Option α) (h off : ℕ) (vR : Option (List α)) (vRoff : ℕ) (v : List α) :
    ∀ (los his pre old post : List α) (i : ℕ), i + off = pre.length → los.length = his.length → old.length = los.length →
    (∀ k, k < los.length → v[i + k]? = los[k]?) → (∀ k, k < los.length → upper vR vRoff h v (i + k) = his[k]?) →
    foldLoop f h off vR vRoff los.length i ⟨v, some (pre ++ (old ++ post))⟩ = (zipFold f los his).map fun out => ⟨v, some (pre ++ (out ++ post))⟩
  | [], [], pre, [], post, i, _, _, _, _, _ => rfl
  | lo :: los, hi :: his, pre, o :: old, post, i, h1, h2, h3, h4, h5 => by
    simp only [List.length_cons] at h2 h3
    rw [List.length_cons, foldLoop]
    dsimp only
    rw [show v[i]? = some lo from h4 0 (by simp), show upper vR vRoff h v i = some hi from h5 0 (by simp)]
    dsimp only
    rw [zipFold]
    cases hf : f lo hi with
    | none => rfl
    | some z =>
      rw [Option.bind_some, Option.bind_some]
      unfold Mem.write
      dsimp only
      rw [if_pos (by simp; omega), Option.bind_some, List.cons_append, set_mid pre o z _ (by omega)]
      have ih := loop_fresh f h off vR vRoff v los his (pre ++ [z]) old post (i + 1) (by simp; omega) (by omega) (by omega)
        (fun k hk => by rw [show i + 1 + k = i + (k + 1) by omega, h4 (k + 1) (by simp; omega)]; rfl)
        (fun k hk => by rw [show i + 1 + k = i + (k + 1) by omega, h5 (k + 1) (by simp; omega)]; rfl)
      simp only [List.append_assoc, List.singleton_append] at ih
      rw [ih, Option.map_map]
      congr 1
  | [], _ :: _, _, _, _, _, _, h2, _, _, _ => by simp at h2
  | _ :: _, [], _, _, _, _, _, h2, _, _, _ => by simp at h2
  | [], [], _, _ :: _, _, _, _, _, h3, _, _ => by simp at h3
  | _ :: _, _ :: _, _, [], _, _, _, _, h3, _, _ => by simp at h3

/-- C126: in place, the lower half of the vector becomes the fold of its halves, whatever the operation, and the upper half stays. -/
theorem C126_in_place {α : Type} (f : α → α → Option α) (lo hi : List α) (h : lo.length = hi.length) :
    (foldMem f (lo ++ hi) none 0 none 0 false).map Mem.result = (zipFold f lo hi).map fun out => out ++ hi := by
  have e := loop_in_place f lo.length lo hi [] [] [] 0 rfl rfl h (by omega)
  simp only [List.nil_append, List.append_nil] at e
  unfold foldMem
  rw [show (if false = true then (lo ++ hi).length else (lo ++ hi).length / 2) = lo.length by simp; omega]
  dsimp only [Mem.start]
  rw [e, Option.map_map]
  rfl

/-- C126: into another vector, from an offset on: only these elements change, and the folded vector stays. -/
theorem C126_fresh {α : Type} (f : α → α → Option α) (lo hi pre old post : List α) (h : lo.length = hi.length) (ho : old.length = lo.length)
    (hne : lo ≠ []) : foldMem f (lo ++ hi) (some (pre ++ (old ++ post))) pre.length none 0 false =
      (zipFold f lo hi).map fun out => ⟨lo ++ hi, some (pre ++ (out ++ post))⟩ := by
  have e := loop_fresh f lo.length pre.length none 0 (lo ++ hi) lo hi pre old post 0 (by omega) h ho
    (fun k hk => by rw [Nat.zero_add, List.getElem?_append_left hk])
    (fun k hk => by rw [upper, List.getElem?_append_right (by omega)]; congr 1; omega)
  unfold foldMem
  rw [show (if false = true then (lo ++ hi).length else (lo ++ hi).length / 2) = lo.length by simp; omega]
  have hn : pre ++ (old ++ post) ≠ [] := by
    intro hc
    simp only [List.append_eq_nil_iff] at hc
    rw [hc.2.1, List.length_nil] at ho
    exact hne (List.length_eq_zero_iff.mp ho.symm)
  obtain ⟨w, ws, hw⟩ := List.exists_cons_of_ne_nil hn
  rw [hw] at e ⊢
  exact e

/-- C126: the upper half may come from a second vector, from an offset on. -/
theorem C126_two {α : Type} (f : α → α → Option α) (lo rpre hi rpost : List α) (h : lo.length = hi.length) (hne : lo ≠ []) (old : List α)
    (ho : old.length = lo.length) : (foldMem f lo (some old) 0 (some (rpre ++ (hi ++ rpost))) rpre.length true).map Mem.result = zipFold f lo hi := by
  have hn : rpre ++ (hi ++ rpost) ≠ [] := by
    intro hc
    simp only [List.append_eq_nil_iff] at hc
    rw [hc.2.1, List.length_nil] at h
    exact hne (List.length_eq_zero_iff.mp h)
  have e := loop_fresh f lo.length 0 (some (rpre ++ (hi ++ rpost))) rpre.length lo lo hi [] old [] 0 rfl h ho (fun k hk => by rw [Nat.zero_add])
    (fun k hk => by
      obtain ⟨r, rs, hr⟩ := List.exists_cons_of_ne_nil hn
      rw [hr]
      unfold upper
      dsimp only
      rw [← hr, Nat.zero_add, Nat.add_comm, List.getElem?_append_right (by omega), Nat.add_sub_cancel_left, List.getElem?_append_left (by omega)])
  simp only [List.nil_append, List.append_nil] at e
  unfold foldMem
  rw [if_pos rfl]
  have hn : old ≠ [] := by
    intro hc
    rw [hc] at ho
    exact hne (List.length_eq_zero_iff.mp ho.symm)
  obtain ⟨w, ws, hw⟩ := List.exists_cons_of_ne_nil hn
  rw [hw] at e ⊢
  unfold Mem.start
  dsimp only
  rw [e, Option.map_map]
  cases zipFold f lo hi <;> rfl

/-- C126: as the first round of the prover folds H: the lower half of one vector with the upper half of another into a third one. -/
theorem C126_second {α : Type} (f : α → α → Option α) (lo rest rpre hi : List α) (h : lo.length = hi.length) (hr : rest.length = lo.length)
    (hp : rpre.length = lo.length) (hne : lo ≠ []) (old : List α) (ho : old.length = lo.length) :
    (foldMem f (lo ++ rest) (some old) 0 (some (rpre ++ hi)) lo.length false).map Mem.result = zipFold f lo hi := by
  have hn : rpre ++ hi ≠ [] := by
    intro hc
    simp only [List.append_eq_nil_iff] at hc
    rw [hc.2, List.length_nil] at h
    exact hne (List.length_eq_zero_iff.mp h)
  have e := loop_fresh f lo.length 0 (some (rpre ++ hi)) lo.length (lo ++ rest) lo hi [] old [] 0 rfl h ho
    (fun k hk => by rw [Nat.zero_add, List.getElem?_append_left hk])
    (fun k hk => by
      obtain ⟨r, rs, hr⟩ := List.exists_cons_of_ne_nil hn
      rw [hr]
      unfold upper
      dsimp only
      rw [← hr, Nat.zero_add, Nat.add_comm, List.getElem?_append_right (by omega), hp, Nat.add_sub_cancel_left])
  simp only [List.nil_append, List.append_nil] at e
  unfold foldMem
  rw [show (if false = true then (lo ++ rest).length else (lo ++ rest).length / 2) = lo.length by simp; omega]
  have hn : old ≠ [] := by
    intro hc
    rw [hc] at ho
    exact hne (List.length_eq_zero_iff.mp ho.symm)
  obtain ⟨w, ws, hw⟩ := List.exists_cons_of_ne_nil hn
  rw [hw] at e ⊢
  unfold Mem.start
  dsimp only
  rw [e, Option.map_map]
  cases zipFold f lo hi <;> rfl

theorem foldKeys_zip (a b : ℤ) : ∀ lo hi : List Bytes, lo.length = hi.length → foldKeys a b lo hi = zipFold (foldKey a b) lo hi
  | [], [], _ => rfl
  | x :: lo, y :: hi, h => by
    rw [foldKeys, zipFold, foldKeys_zip a b lo hi (by simpa using h)]
    cases foldKey a b x y with
    | none => rfl
    | some z => cases zipFold (foldKey a b) lo hi <;> rfl
  | [], _ :: _, h => by simp at h
  | _ :: _, [], h => by simp at h

theorem foldScalar_zip (a b : ℤ) : ∀ lo hi : List ℤ, lo.length = hi.length →
    zipFold (foldScalar a b) lo hi = some (lo.zipWith (fun x y => scAdd (scMul x a) (scMul y b)) hi)
  | [], [], _ => rfl
  | x :: lo, y :: hi, h => by
    rw [zipFold, foldScalar_zip a b lo hi (by simpa using h)]
    rfl
  | [], _ :: _, h => by simp at h
  | _ :: _, [], h => by simp at h

/-- C126: so the in-place folds of points and scalars, cut to their lower half, are the folds that the prover of C44 uses. -/
theorem C126_prover (a b : ℤ) : (∀ v : List Bytes, v.length % 2 = 0 →
      (foldMem (foldKey a b) v none 0 none 0 false).map (fun m => m.result.take (v.length / 2)) = hadamardFold v a b) ∧
    ∀ v : List ℤ, v.length % 2 = 0 → (foldMem (foldScalar a b) v none 0 none 0 false).map (fun m => m.result.take (v.length / 2)) = some (scalarFold v a b) := by
  have zl : ∀ {α : Type} (f : α → α → Option α) (lo hi out : List α), lo.length = hi.length → zipFold f lo hi = some out → out.length = lo.length := by
    intro α f lo
    induction lo with
    | nil => intro hi out h e; cases hi <;> (rw [zipFold] at e; cases e; rfl; all_goals simp)
    | cons x lo ih =>
      intro hi out h e
      cases hi with
      | nil => simp at h
      | cons y hi =>
        rw [zipFold] at e
        cases hf : f x y with
        | none => rw [hf] at e; cases e
        | some z =>
          rw [hf, Option.bind_some] at e
          cases hz : zipFold f lo hi with
          | none => rw [hz] at e; cases e
          | some zs =>
            rw [hz] at e
            cases e
            simp [ih hi zs (by simpa using h) hz]
  have key : ∀ {α : Type} (f : α → α → Option α) (v : List α), v.length % 2 = 0 →
      (foldMem f v none 0 none 0 false).map (fun m => m.result.take (v.length / 2)) = zipFold f (v.take (v.length / 2)) (v.drop (v.length / 2)) := by
    intro α f v hv
    have hl : (v.take (v.length / 2)).length = (v.drop (v.length / 2)).length := by simp; omega
    have e := C126_in_place f _ _ hl
    rw [List.take_append_drop] at e
    have e2 := congrArg (Option.map (List.take (v.length / 2))) e
    rw [Option.map_map, Option.map_map] at e2
    rw [show (fun m : Mem α => m.result.take (v.length / 2)) = List.take (v.length / 2) ∘ Mem.result from rfl, e2]
    cases hz : zipFold f (v.take (v.length / 2)) (v.drop (v.length / 2)) with
    | none => rfl
    | some out =>
      have := zl f _ _ out hl hz
      rw [Option.map_some, Function.comp]
      congr 1
      rw [List.take_append_of_le_length (by rw [this]; simp; omega), List.take_of_length_le (by rw [this]; simp)]
  refine ⟨fun v hv => ?_, fun v hv => ?_⟩
  · rw [key _ v hv, hadamardFold, foldKeys_zip _ _ _ _ (by simp; omega)]
  · rw [key _ v hv, scalarFold, foldScalar_zip _ _ _ _ (by simp; omega)]

/-- One element of the first pass. -/
def pass1 (a : ℤ) (x : Bytes) : Option Bytes := (decodePoint x).map fun P => encodePoint (smul P a)

/-- One element of the second pass. -/
def pass2 (b : ℤ) (mid hi : Bytes) : Option Bytes := (decodePoint hi).bind fun P => (decodePoint mid).map fun Q => encodePoint (add (smul P b) Q)

theorem linear1_eq (a : ℤ) : ∀ (los pre post : List Bytes) (i : ℕ), i = pre.length →
    linear1 a 0 los.length i ⟨pre ++ (los ++ post), none⟩ = (los.mapM (pass1 a)).map fun out => ⟨pre ++ (out ++ post), none⟩
  | [], _, _, _, _ => rfl
  | lo :: los, pre, post, i, h1 => by
    rw [List.length_cons, linear1, List.mapM_cons]
    dsimp only
    rw [List.cons_append, get_mid pre lo _ h1, Option.bind_some]
    unfold pass1
    cases hf : decodePoint lo with
    | none => rfl
    | some P =>
      rw [Option.bind_some]
      unfold Mem.write
      dsimp only
      rw [if_pos (by simp; omega), Option.bind_some, set_mid pre lo _ _ (by omega)]
      have ih := linear1_eq a los (pre ++ [encodePoint (smul P a)]) post (i + 1) (by simp [h1])
      simp only [List.append_assoc, List.singleton_append] at ih
      rw [ih, Option.map_some]
      show _ = Option.map _ ((los.mapM (pass1 a)).bind fun zs => some (encodePoint (smul P a) :: zs))
      cases los.mapM (pass1 a) <;> rfl

theorem linear2_eq (b : ℤ) (h : ℕ) : ∀ (k i : ℕ) (v : List Bytes), linear2 b h 0 k i ⟨v, none⟩ = foldLoop (pass2 b) h 0 none 0 k i ⟨v, none⟩
  | 0, _, _ => rfl
  | k + 1, i, v => by
    rw [linear2, foldLoop]
    unfold upper Mem.result
    dsimp only [Option.getD_none, Nat.add_zero]
    rw [Nat.add_comm i h]
    cases hx : v[i]? with
    | none =>
      cases (v[h + i]?.bind fun x => decodePoint x) <;> rfl
    | some x =>
      cases hy : v[h + i]? with
      | none => rfl
      | some y =>
        dsimp only [Option.bind_some]
        unfold pass2
        cases decodePoint y with
        | none => rfl
        | some P =>
          cases decodePoint x with
          | none => rfl
          | some Q =>
            simp only [Option.bind_some, Option.map_some]
            unfold Mem.write
            dsimp only
            split
            · exact linear2_eq b h k (i + 1) _
            · rfl

theorem pass_eq {a b : ℤ} (ha : 0 ≤ a) (hb : 0 ≤ b) (lo hi : Bytes) : ((pass1 a lo).bind fun mid => pass2 b mid hi) = foldKey a b lo hi := by
  unfold pass1 pass2 foldKey
  cases hl : decodePoint lo with
  | none => rfl
  | some P =>
    cases hh : decodePoint hi with
    | none => rfl
    | some Q =>
      obtain ⟨p, hp⟩ := decodePoint_rep hl
      obtain ⟨r, hr⟩ := decodePoint_rep hh
      rw [Option.map_some, Option.bind_some, Option.bind_some, encodePoint_rep (rep_smul hp ha), decode_encPt, Option.map_some,
        encodePoint_rep (rep_add (rep_smul hr hb) (rep_canon _)), add_comm]
      dsimp only
      rw [encodePoint_rep (rep_addKeys3 hp hr ha hb)]

theorem zip_passes {a b : ℤ} (ha : 0 ≤ a) (hb : 0 ≤ b) : ∀ lo hi : List Bytes, lo.length = hi.length →
    ((lo.mapM (pass1 a)).bind fun mids => zipFold (pass2 b) mids hi) = zipFold (foldKey a b) lo hi
  | [], [], _ => rfl
  | x :: lo, y :: hi, h => by
    rw [List.mapM_cons, zipFold, ← pass_eq ha hb, ← zip_passes ha hb lo hi (by simpa using h)]
    show ((pass1 a x).bind fun z => (lo.mapM (pass1 a)).bind fun zs => some (z :: zs)).bind _ = _
    cases pass1 a x with
    | none => rfl
    | some z =>
      dsimp only [Option.bind_some]
      cases lo.mapM (pass1 a) with
      | none => cases pass2 b z y <;> rfl
      | some zs =>
        rw [Option.bind_some, Option.bind_some, Option.bind_some]
        rfl
  | [], _ :: _, h => by simp at h
  | _ :: _, [], h => by simp at h

theorem mapM_len (a : ℤ) : ∀ (lo mids : List Bytes), lo.mapM (pass1 a) = some mids → mids.length = lo.length
  | [], mids, hm => by rw [List.mapM_nil] at hm; cases hm; rfl
  | x :: lo, mids, hm => by
    rw [List.mapM_cons] at hm
    change ((pass1 a x).bind fun z => (lo.mapM (pass1 a)).bind fun zs => some (z :: zs)) = _ at hm
    cases hz : pass1 a x with
    | none => rw [hz] at hm; cases hm
    | some z =>
      rw [hz, Option.bind_some] at hm
      cases hzs : lo.mapM (pass1 a) with
      | none => rw [hzs] at hm; cases hm
      | some zs =>
        rw [hzs] at hm
        cases hm
        simp [mapM_len a lo zs hzs]

/-- C126: reading the vector in one direction, in two passes, gives the same bytes and the same exceptions. -/
theorem C126_linear {a b : ℤ} (ha : 0 ≤ a) (hb : 0 ≤ b) (lo hi : List Bytes) (h : lo.length = hi.length) :
    (foldLinear (lo ++ hi) a b none 0).map Mem.result = (foldMem (foldKey a b) (lo ++ hi) none 0 none 0 false).map Mem.result := by
  rw [C126_in_place _ _ _ h, ← zip_passes ha hb lo hi h]
  unfold foldLinear
  rw [show (lo ++ hi).length / 2 = lo.length by simp; omega]
  have e1 := linear1_eq a lo [] hi 0 rfl
  simp only [List.nil_append] at e1
  dsimp only [Mem.start]
  rw [e1]
  cases hm : lo.mapM (pass1 a) with
  | none => rfl
  | some mids =>
    have hlen := mapM_len a lo mids hm
    rw [Option.map_some, Option.bind_some, Option.bind_some, linear2_eq]
    have e2 := loop_in_place (pass2 b) lo.length mids hi [] [] [] 0 rfl rfl (by omega) (by omega)
    simp only [List.nil_append, List.append_nil] at e2
    rw [← hlen] at e2 ⊢
    rw [e2, Option.map_map]
    rfl

theorem linear1_fresh (a : ℤ) (off : ℕ) (v : List Bytes) : ∀ (los pre old post : List Bytes) (i : ℕ), i + off = pre.length → old.length = los.length →
    (∀ k, k < los.length → v[i + k]? = los[k]?) →
    linear1 a off los.length i ⟨v, some (pre ++ (old ++ post))⟩ = (los.mapM (pass1 a)).map fun out => ⟨v, some (pre ++ (out ++ post))⟩
  | [], _, [], _, _, _, _, _ => rfl
  | lo :: los, pre, o :: old, post, i, h1, h2, h3 => by
    simp only [List.length_cons] at h2
    rw [List.length_cons, linear1, List.mapM_cons]
    dsimp only
    rw [show v[i]? = some lo from h3 0 (by simp), Option.bind_some]
    unfold pass1
    cases hf : decodePoint lo with
    | none => rfl
    | some P =>
      rw [Option.bind_some]
      unfold Mem.write
      dsimp only
      rw [if_pos (by simp; omega), Option.bind_some, List.cons_append, set_mid pre o _ _ (by omega)]
      have ih := linear1_fresh a off v los (pre ++ [encodePoint (smul P a)]) old post (i + 1) (by simp; omega) (by omega)
        (fun k hk => by rw [show i + 1 + k = i + (k + 1) by omega, h3 (k + 1) (by simp; omega)]; rfl)
      simp only [List.append_assoc, List.singleton_append] at ih
      rw [ih, Option.map_some]
      show _ = Option.map _ ((los.mapM (pass1 a)).bind fun zs => some (encodePoint (smul P a) :: zs))
      cases los.mapM (pass1 a) <;> rfl
  | [], _, _ :: _, _, _, _, h2, _ => by simp at h2
  | _ :: _, _, [], _, _, _, h2, _ => by simp at h2

theorem linear2_fresh (b : ℤ) (h off : ℕ) (v : List Bytes) : ∀ (mids his pre post : List Bytes) (i : ℕ), i + off = pre.length → mids.length = his.length →
    (∀ k, k < his.length → v[i + k + h]? = his[k]?) →
    linear2 b h off mids.length i ⟨v, some (pre ++ (mids ++ post))⟩ = (zipFold (pass2 b) mids his).map fun out => ⟨v, some (pre ++ (out ++ post))⟩
  | [], [], _, _, _, _, _, _ => rfl
  | mid :: mids, hi :: his, pre, post, i, h1, h2, h3 => by
    simp only [List.length_cons] at h2
    rw [List.length_cons, linear2, zipFold]
    unfold Mem.result
    dsimp only [Option.getD_some]
    rw [show v[i + h]? = some hi from h3 0 (by simp), Option.bind_some, List.cons_append, get_mid pre mid _ h1, Option.bind_some]
    unfold pass2
    cases decodePoint hi with
    | none => rfl
    | some P =>
      cases decodePoint mid with
      | none => rfl
      | some Q =>
        simp only [Option.bind_some, Option.map_some]
        unfold Mem.write
        dsimp only
        rw [if_pos (by simp; omega), Option.bind_some, set_mid pre mid _ _ h1]
        have ih := linear2_fresh b h off v mids his (pre ++ [encodePoint (add (smul P b) Q)]) post (i + 1) (by simp; omega) (by omega)
          (fun k hk => by rw [show i + 1 + k + h = i + (k + 1) + h by omega, h3 (k + 1) (by simp; omega)]; rfl)
        simp only [List.append_assoc, List.singleton_append] at ih
        rw [ih, Option.map_map]
        rfl
  | [], _ :: _, _, _, _, _, h2, _ => by simp at h2
  | _ :: _, [], _, _, _, _, h2, _ => by simp at h2

/-- C126: the same into another vector, from an offset on. -/
theorem C126_linear_fresh {a b : ℤ} (ha : 0 ≤ a) (hb : 0 ≤ b) (lo hi pre old post : List Bytes) (h : lo.length = hi.length) (ho : old.length = lo.length)
    (hne : lo ≠ []) : foldLinear (lo ++ hi) a b (some (pre ++ (old ++ post))) pre.length =
      foldMem (foldKey a b) (lo ++ hi) (some (pre ++ (old ++ post))) pre.length none 0 false := by
  rw [C126_fresh _ lo hi pre old post h ho hne, ← zip_passes ha hb lo hi h]
  unfold foldLinear
  rw [show (lo ++ hi).length / 2 = lo.length by simp; omega]
  have hn : pre ++ (old ++ post) ≠ [] := by
    intro hc
    simp only [List.append_eq_nil_iff] at hc
    rw [hc.2.1, List.length_nil] at ho
    exact hne (List.length_eq_zero_iff.mp ho.symm)
  have e0 : Mem.start (lo ++ hi) (some (pre ++ (old ++ post))) = ⟨lo ++ hi, some (pre ++ (old ++ post))⟩ := by
    obtain ⟨w, ws, hw⟩ := List.exists_cons_of_ne_nil hn
    rw [hw]; rfl
  rw [e0, linear1_fresh a pre.length (lo ++ hi) lo pre old post 0 (by omega) ho (fun k hk => by rw [Nat.zero_add, List.getElem?_append_left hk])]
  cases hm : lo.mapM (pass1 a) with
  | none => rfl
  | some mids =>
    have hlen := mapM_len a lo mids hm
    rw [Option.map_some, Option.bind_some, Option.bind_some]
    have e2 := linear2_fresh b lo.length pre.length (lo ++ hi) mids hi pre post 0 (by omega) (by omega)
      (fun k hk => by rw [Nat.zero_add, Nat.add_comm, List.getElem?_append_right (by omega), Nat.add_sub_cancel_left])
    rw [hlen] at e2
    exact e2

/-- In place with an offset the writes run into the elements still to be read: the result is not the fold. -/
theorem C126_false_offset : (foldMem (foldScalar 1 1) [1, 2, 3, 4] none 1 none 0 false).map Mem.result = some [1, 4, 8, 4] ∧
    zipFold (foldScalar 1 1) [1, 2] [3, 4] = some [4, 6] := by decide +kernel

theorem powersLoop_eq (x : ℤ) : ∀ (k j : ℕ), powersLoop x k (pw x (j + 1)) = (List.range k).map fun i => pw x (j + 2 + i)
  | 0, _ => rfl
  | k + 1, j => by
    rw [powersLoop, show scMul (pw x (j + 1)) x = pw x (j + 1 + 1) from rfl, powersLoop_eq x k (j + 1), List.range_succ_eq_map, List.map_cons, List.map_map]
    congr 1
    apply List.map_congr_left
    intro i _
    show pw x (j + 1 + 2 + i) = pw x (j + 2 + (i + 1))
    congr 1
    omega

/-- C126: the table of powers has at every index the power itself, modulo the order, for every size. -/
theorem C126_powers (x : ℤ) (hx : 0 ≤ x ∧ x < l) (n : ℕ) : (vectorPowers x n).length = n ∧ ∀ i < n, (vectorPowers x n)[i]? = some (x ^ i % l) := by
  have hpw : ∀ i, pw x i = x ^ i % l := by
    intro i
    induction i with
    | zero => rw [pow_zero]; rfl
    | succ i ih =>
      cases i with
      | zero => rw [pow_succ, pow_zero, one_mul, Int.emod_eq_of_lt hx.1 hx.2]; rfl
      | succ i =>
        show scMul (pw x (i + 1)) x = _
        rw [ih, scMul, pow_succ x (i + 1), Int.mul_emod, Int.emod_emod, ← Int.mul_emod]
  have e : vectorPowers x n = (List.range n).map (pw x) := by
    unfold vectorPowers
    rcases n with _ | _ | n
    · rfl
    · rfl
    · rw [if_neg (by omega), if_neg (by omega), show n + 1 + 1 - 2 = n by omega]
      have := powersLoop_eq x n 0
      rw [show pw x (0 + 1) = x from rfl] at this
      rw [this, List.range_succ_eq_map, List.range_succ_eq_map]
      simp only [List.map_cons, List.map_map]
      congr 2
      apply List.map_congr_left
      intro i _
      show pw x (0 + 2 + i) = pw x (i + 1 + 1)
      congr 1
      omega
  rw [e]
  refine ⟨by simp, fun i hi => ?_⟩
  rw [List.getElem?_map, List.getElem?_range hi, Option.map_some, hpw]

/-- Scalars handed over in decoded form are not used: all points are multiplied with the scalar that an earlier call left behind. -/
theorem C126_false_raw (stale : ℤ) (A : List Bytes) (n : ℕ) (hn : n ≤ A.length) :
    vectorSum stale none n A = vectorSum 0 (some (List.replicate n stale)) 0 A := by
  unfold vectorSum
  simp only [Option.map_none, Option.map_some, Option.getD_none, Option.getD_some, List.length_replicate]
  have : ∀ (is : List ℕ) (acc : Ext), (∀ i ∈ is, i < n) →
      is.foldlM (fun (acc : Ext) (i : ℕ) => (scalarOf stale none i).bind fun s => (A[i]?.bind fun x => decodePoint x).map fun P => add acc (smul P s)) acc =
      is.foldlM (fun (acc : Ext) (i : ℕ) => (scalarOf 0 (some (List.replicate n stale)) i).bind fun s => (A[i]?.bind fun x => decodePoint x).map fun P =>
        add acc (smul P s)) acc := by
    intro is
    induction is with
    | nil => intro _ _; rfl
    | cons i is ih =>
      intro acc h
      rw [List.foldlM_cons, List.foldlM_cons]
      unfold scalarOf
      dsimp only
      rw [List.getElem?_replicate, if_pos (h i (by simp))]
      congr 1
      funext a
      exact ih a fun j hj => h j (by simp [hj])
  rw [this _ _ (by simp)]

example : (foldMem (foldScalar 2 3) [1, 2, 3, 4] none 0 none 0 false).map Mem.result = some [11, 16, 3, 4] ∧ vectorPowers 3 4 = [1, 3, 9, 27] := by
  decide +kernel

end Verif.Bp
