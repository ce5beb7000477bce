import Verif.Lemmas.RealSign

/-! A correctly signed transaction made with the concrete parts passes the network's checks. -/

namespace Verif.Real
open Verif Ed Key Sig Edwards Signer Agent

theorem sum_enc : ∀ ps : List Sub, ∃ P, sum (ps.map Bp.enc) = some P ∧ Rep P ((ps.sum : Sub) : Point)
  | [] => ⟨ident, rfl, rep_ident⟩
  | p :: ps => by
    obtain ⟨P, h1, h2⟩ := sum_enc ps
    refine ⟨add (canon (p : Point)) P, by rw [List.map_cons, sum, Bp.decode_enc, h1], ?_⟩
    rw [List.sum_cons, AddSubgroup.coe_add]
    exact rep_add (Bp.rep_sub_canon p) h2

theorem balance_ok {o : Outside} {ins : List (Spent Fl Sub)} {outs : List (Made Fl Sub)} {fee : ℕ}
    (h : (ins.map fun i => Signer.genC (env o) i.mask i.src.amount).sum =
      (outs.map fun m => Signer.genC (env o) m.mask m.dst.amount).sum + (fee : Fl) • (env o).H) :
    BalanceOk (ins.map fun i => Bp.enc (Signer.genC (env o) i.mask i.src.amount)) (outs.map fun m => Bp.enc (Signer.genC (env o) m.mask m.dst.amount))
      fee := by
  obtain ⟨P, hP, rP⟩ := sum_enc (ins.map fun i => Signer.genC (env o) i.mask i.src.amount)
  obtain ⟨Q, hQ, rQ⟩ := sum_enc (outs.map fun m => Signer.genC (env o) m.mask m.dst.amount)
  rw [List.map_map] at hP hQ
  refine ⟨P, Q, hP, hQ, ?_⟩
  have rfee : Rep (Key.genC 0 (fee : ℤ)) ((((fee : ℕ) : Fl) • Bp.hS : Sub) : Point) := by
    have := rep_genC 0 (fee : ℤ)
    have e := Bp.coe_smul (fee : ℤ) Bp.hS
    rw [Int.cast_natCast] at e
    rw [e]
    rwa [zero_smul, zero_add] at this
  rw [pointEqual_iff rP (rep_add rQ rfee), h, AddSubgroup.coe_add]
  rfl

theorem recompute_eighths (o : Outside) : ∀ ms : List (Made Fl Sub), ∃ V,
    Bp.recomputeV (ms.map (·.dst.amount)) ((ms.map (·.mask)).map Bp.num) = some V ∧
      (ms.map fun m => Bp.enc (Signer.genC (env o) m.mask m.dst.amount)).mapM (fun c => Bp.scalarmultKey c Bp.inv8) = some V
  | [] => ⟨[], rfl, rfl⟩
  | m :: ms => by
    obtain ⟨V, h1, h2⟩ := recompute_eighths o ms
    have hr : Rep (Key.genC (Bp.num m.mask) (m.dst.amount : ℤ)) ((Signer.genC (env o) m.mask m.dst.amount : Sub) : Point) := by
      rw [coe_genC]; exact rep_genC _ _
    have he : encodePoint (smul (Key.genC (Bp.num m.mask) (m.dst.amount : ℤ)) (Bp.inv8 % l)) =
        Bp.enc ((Bp.inv8 : Fl) • Signer.genC (env o) m.mask m.dst.amount) := by
      have := Bp.encode_rep (Bp.rep_smulS hr (emod_l_range Bp.inv8).1)
      rwa [cast_mod_l] at this
    refine ⟨Bp.enc ((Bp.inv8 : Fl) • Signer.genC (env o) m.mask m.dst.amount) :: V, ?_, ?_⟩
    · rw [List.map_cons, List.map_cons, List.map_cons, Bp.recomputeV, h1, Option.map_some, he]
    · rw [List.map_cons, List.mapM_cons, Bp.scalarmultKey_enc _ Bp.inv8_nn, h2]; rfl

theorem proof_ok {o : Outside} {p : Verif.Bp} {ms : List (Made Fl Sub)} (h0 : 0 < ms.length) (h16 : ms.length ≤ 16)
    (h : (env o).bpVerify p (ms.map (·.dst.amount)) (ms.map (·.mask)) = true) :
    ProofOk o.hash p (ms.map fun m => Bp.enc (Signer.genC (env o) m.mask m.dst.amount)) := by
  rw [bpVerify_iff] at h
  obtain ⟨V, h1, h2⟩ := recompute_eighths o ms
  refine ⟨by intro e; rw [List.map_eq_nil_iff] at e; rw [e] at h0; simp at h0, by rw [List.length_map]; exact h16, V, h2, fun wy wz => ?_⟩
  have := h wy wz
  rw [Bp.verifyBp, if_neg (by intro e; rw [List.map_eq_nil_iff] at e; rw [e] at h0; simp at h0), h1] at this
  exact this

theorem accepted {o : Outside} (ho : o.Ok) {cfg : Config} {d : TxData} {tx : Tx} {ins : List (Spent Fl Sub)} {outs : List (Made Fl Sub)}
    {groups : List (Verif.Bp × List (Made Fl Sub))} {nonce : Bytes} {txKey : Sub} {addKeys : List Sub}
    (h : TxOk (env o) cfg d tx ins outs groups nonce txKey addKeys) (hd : Distinct o d) : Accepted o.hash tx (ins.map (·.src.outputs)) where
  inputs := by
    refine ⟨by rw [h.vin]; simp, by rw [h.pseudo]; simp, ?_⟩
    rw [List.length_map]; exact h.signed.length_eq.symm
  offsets := by rw [h.vin, List.map_map, List.map_map]; rfl
  message := h.message
  signed := by
    intro i ring vin pseudo sig h1 h2 h3 h4
    rw [List.getElem?_map, Option.map_eq_some_iff] at h1
    obtain ⟨s, hs, rfl⟩ := h1
    rw [h.vin, List.getElem?_map, hs, Option.map_some, Option.some.injEq] at h2
    rw [h.pseudo, List.getElem?_map, hs, Option.map_some, Option.some.injEq] at h3
    obtain ⟨hi, e1⟩ := List.getElem?_eq_some_iff.1 hs
    obtain ⟨hi', e2⟩ := List.getElem?_eq_some_iff.1 h4
    obtain ⟨r, hr⟩ := (List.forall₂_iff_get.1 h.signed).2 i hi hi'
    simp only [List.get_eq_getElem, e1, e2] at hr
    rw [← h3]
    exact mlsag_accepted ho (h.mine s (List.mem_of_getElem? hs)) (vin := vin) (by rw [← h2]; rfl) hr
  outputs := by
    refine ⟨?_, ?_⟩
    · rw [h.vout, h.commitments, List.length_map, List.length_map]
    · rw [h.encrypted, h.commitments, List.length_map, List.length_map]
  proofs := by
    refine ⟨groups.map fun g => g.2.map fun m => Bp.enc (Signer.genC (env o) m.mask m.dst.amount), ?_, ?_⟩
    · rw [h.commitments, h.covered, List.map_flatten, List.map_map]; rfl
    · rw [h.proofs, List.forall₂_map_left_iff, List.forall₂_map_right_iff, List.forall₂_same]
      intro g hg
      obtain ⟨h1, h2, h3⟩ := h.valid g hg
      exact proof_ok h1 h2 h3
  images := by
    refine ⟨?_, ?_⟩
    · intro v hv
      rw [h.vin] at hv
      obtain ⟨i, -, rfl⟩ := List.mem_map.1 hv
      exact ⟨i.ki, ptDec_enc i.ki⟩
    · have hp : (ins.map (·.src)).Pairwise fun s s' => ∀ x ki x' ki', Owns (env o) (tableOf (env o) d) s x ki →
          Owns (env o) (tableOf (env o) d) s' x' ki' → ki ≠ ki' :=
        (h.sources.pairwise_iff fun {s s'} hs x ki x' ki' h1 h2 => (hs x' ki' x ki h2 h1).symm).2 hd
      rw [List.pairwise_map] at hp
      have hn : ins.Pairwise fun i j => Bp.enc i.ki ≠ Bp.enc j.ki :=
        hp.imp_of_mem fun {i j} hi hj hij he => hij _ _ _ _ (h.mine i hi) (h.mine j hj) (Bp.enc_injective he)
      have hn' : (tx.vin.map (·.ki)).Pairwise fun a b => a ≠ b := by
        rw [h.vin, List.map_map, List.pairwise_map]
        exact hn
      exact (h.sorted.and hn').imp fun {a b} hab => Std.lt_of_le_of_ne hab.1 hab.2.symm
  balance := by
    rw [h.pseudo, h.commitments]
    exact balance_ok h.balance

theorem honest {o : Outside} (ho : o.Ok) {cfg : Config} {d : TxData} (h : Request o cfg d) : Honest (env o) cfg d where
  version := h.version
  hf := h.hf
  useBp := h.useBp
  sources := h.sources
  dsts := h.dsts
  fewSources := h.fewSources
  fewDsts := h.fewDsts
  enough := h.enough
  amounts := h.amounts
  mine := by
    intro src hs
    have hm := h.mine src hs
    obtain ⟨x, ki, how⟩ := hm.mine
    refine ⟨x, ki, how, fun msg mask r => ?_⟩
    obtain ⟨mg, e, -⟩ := mlsag_some ho how hm.size hm.points msg mask r
    rw [e]; rfl
  addrs := h.addrs
  change := h.change
  paymentId := h.paymentId

end Verif.Real
