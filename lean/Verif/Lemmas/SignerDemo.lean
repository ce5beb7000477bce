import Verif.Spec.SignerDemo
import Verif.Spec.SignerCrypto

/-! The demo primitives satisfy the idealised assumptions. -/

namespace Verif.Signer.Demo
open Verif Verif.Signer

theorem encNat_inj {m n : Nat} {x y : Bytes} (h : encNat m ++ x = encNat n ++ y) : m = n ∧ x = y := by
  induction m generalizing n with
  | zero =>
    cases n with
    | zero => simpa [encNat] using h
    | succ n => simp [encNat, List.replicate_succ] at h
  | succ m ih =>
    cases n with
    | zero => simp [encNat, List.replicate_succ] at h
    | succ n =>
      simp only [encNat, List.replicate_succ, List.cons_append, List.cons.injEq, true_and] at h
      obtain ⟨h1, h2⟩ := ih (n := n) (by simpa [encNat] using h)
      exact ⟨by omega, h2⟩

/-- `f` is a prefix-free encoding. -/
def PF {α : Type} (f : α → Bytes) : Prop := ∀ a b x y, f a ++ x = f b ++ y → a = b ∧ x = y

theorem pf_nat : PF encNat := fun _ _ _ _ h => encNat_inj h

theorem pf_list {α : Type} {f : α → Bytes} (hf : PF f) : PF (encList f) := by
  intro a b x y h
  unfold encList at h
  rw [List.append_assoc, List.append_assoc] at h
  obtain ⟨hl, h⟩ := encNat_inj h
  clear * - hl h hf
  induction a generalizing b with
  | nil =>
    have : b = [] := List.length_eq_zero_iff.1 hl.symm
    subst this
    exact ⟨rfl, by simpa using h⟩
  | cons u a ih =>
    cases b with
    | nil => simp at hl
    | cons v b =>
      simp only [List.map_cons, List.flatten_cons, List.append_assoc] at h
      obtain ⟨e1, h'⟩ := hf _ _ _ _ h
      obtain ⟨e2, h''⟩ := ih b (by simpa using hl) h'
      exact ⟨by rw [e1, e2], h''⟩

theorem pf_bytes : PF encBytes :=
  pf_list (f := fun x : UInt8 => encNat x.toNat) fun _ _ _ _ h => by
    obtain ⟨h1, h2⟩ := encNat_inj h
    exact ⟨UInt8.toNat_inj.1 h1, h2⟩

theorem pf_bool : PF encBool := fun a b x y h => by
  obtain ⟨h1, h2⟩ := encNat_inj h
  exact ⟨by cases a <;> cases b <;> simp at h1 ⊢, h2⟩

theorem pf_addr : PF encAddr := fun a b x y h => by
  simp only [encAddr, List.append_assoc] at h
  obtain ⟨h1, h⟩ := pf_bytes _ _ _ _ h
  obtain ⟨h2, h⟩ := pf_bytes _ _ _ _ h
  exact ⟨by cases a; cases b; simp_all, h⟩

theorem pf_dst : PF encDst := fun a b x y h => by
  simp only [encDst, List.append_assoc] at h
  obtain ⟨h1, h⟩ := encNat_inj h
  obtain ⟨h2, h⟩ := pf_addr _ _ _ _ h
  obtain ⟨h3, h⟩ := pf_bool _ _ _ _ h
  exact ⟨by cases a; cases b; simp_all, h⟩

theorem pf_ring : PF encRing := fun a b x y h => by
  simp only [encRing, List.append_assoc] at h
  obtain ⟨h1, h⟩ := encNat_inj h
  obtain ⟨h2, h⟩ := pf_bytes _ _ _ _ h
  obtain ⟨h3, h⟩ := pf_bytes _ _ _ _ h
  exact ⟨by cases a; cases b; simp_all, h⟩

/-- `encSrc` with the presence of the last field marked, which makes it prefix free. -/
def encSrcMarked (s : Src) : Bytes := encBool s.subaddrMinor.isSome ++ encSrc s

theorem pf_src : PF encSrcMarked := fun a b x y h => by
  simp only [encSrcMarked, encSrc, List.append_assoc] at h
  obtain ⟨h0, h⟩ := pf_bool _ _ _ _ h
  obtain ⟨h1, h⟩ := pf_list pf_ring _ _ _ _ h
  obtain ⟨h2, h⟩ := encNat_inj h
  obtain ⟨h3, h⟩ := pf_bytes _ _ _ _ h
  obtain ⟨h4, h⟩ := pf_list pf_bytes _ _ _ _ h
  obtain ⟨h5, h⟩ := encNat_inj h
  obtain ⟨h6, h⟩ := encNat_inj h
  obtain ⟨h7, h⟩ := pf_bool _ _ _ _ h
  obtain ⟨h8, h⟩ := pf_bytes _ _ _ _ h
  rcases a with ⟨a1, a2, a3, a4, a5, a6, a7, a8, a9⟩
  rcases b with ⟨b1, b2, b3, b4, b5, b6, b7, b8, b9⟩
  cases a9 <;> cases b9 <;> simp [encOpt] at h0 h
  · simp_all
  · obtain ⟨h9, h⟩ := encNat_inj h
    simp_all

theorem keyHash_spec : (∀ x : Bytes, (env.keccak2 x).length = 32) ∧
    ∀ secret x y : Bytes, secret.length = 32 → x.length = 16 → y.length = 16 →
      env.keccak2 (secret ++ x) = env.keccak2 (secret ++ y) → x = y := by
  constructor
  · intro x
    simp only [env]
    split
    · simp; omega
    · simp
  · intro secret x y hs hx hy h
    simp only [env, List.length_append, hs, hx, hy] at h
    simp only [Nat.reduceAdd, if_true] at h
    have := List.append_cancel_right h
    rwa [List.drop_append_of_le_length (by omega), List.drop_append_of_le_length (by omega),
      List.drop_eq_nil_of_le (by omega), List.nil_append, List.nil_append] at this

theorem mac_inj (k k' m m' : Bytes) (h : env.mac k m = env.mac k' m') : k = k' ∧ m = m' := by
  simp only [env] at h
  obtain ⟨hl, h⟩ := encNat_inj h
  exact List.append_inj h hl

theorem binding : Binding env := ⟨keyHash_spec.1, keyHash_spec.2, mac_inj, fun _ _ h => h⟩

theorem decInt_encInt (z : Int) : decInt (encInt z) = z := by
  have ht : ∀ n : Nat, ((encNat n).takeWhile (· == 1)).length = n := by
    intro n
    unfold encNat
    induction n with
    | zero => rfl
    | succ n ih => simp only [List.replicate_succ, List.cons_append]; rw [List.takeWhile_cons_of_pos (by decide)]; simp [ih]
  unfold encInt
  by_cases hz : z < 0
  · rw [if_pos hz]
    simp only [decInt, ht]
    omega
  · rw [if_neg hz]
    have h0 : decInt (0 :: encNat z.natAbs) = (((encNat z.natAbs).takeWhile (· == 1)).length : Int) := by
      rw [decInt.eq_2]
      intro h
      simp at h
    rw [h0, ht]; omega

theorem sealing : Sealing env where
  openSeal k m n := by
    simp only [env]
    rw [← List.append_assoc, List.take_left, if_pos rfl, List.drop_left]
  bind k k' m m' n h := by
    simp only [env] at h
    split at h
    · rename_i hc
      have := List.take_append_drop (encNat k'.length ++ k').length (encNat k.length ++ (k ++ m))
      rw [hc, List.append_assoc] at this
      obtain ⟨hl, h2⟩ := encNat_inj this
      exact (List.append_inj h2 hl).1.symm
    · simp at h
  scRound := decInt_encInt
  ptRound p := by simp [env, decInt_encInt]

end Verif.Signer.Demo
