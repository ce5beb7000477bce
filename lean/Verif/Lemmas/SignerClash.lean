import Verif.Lemmas.SignerTags
import Verif.Spec.SignerClash

set_option linter.unusedSectionVars false

namespace Verif.Signer
open Verif
variable {S P : Type} [CommRing S] [AddCommGroup P] [Module S P] [DecidableEq S] [DecidableEq P]

theorem tagged_of {env : Env S P} {secret t data : Bytes} {a : Item} (hd : data = a.digest env)
    (h : tag env secret a.purpose.label a.index data = some t) : a.Tagged env secret t := by
  obtain ⟨k, h1, h2⟩ := Option.map_eq_some_iff.1 h
  obtain ⟨buf, h3, h4⟩ := Option.map_eq_some_iff.1 h1
  exact ⟨k, ⟨buf, h3, h4.symm⟩, by rw [← hd]; exact h2.symm⟩

theorem tagged_dst {env : Env S P} {secret t : Bytes} {d : Dst} {i : Nat} (h : hmacDst env secret d i = some t) :
    (dstItem env i d).Tagged env secret t :=
  tagged_of (by simp [Item.digest, dstItem]) h

theorem tagged_vini {env : Env S P} {secret t v : Bytes} {d : Src} {i : Nat} (h : hmacVini env secret d v i = some t) :
    (viniItem env i d v).Tagged env secret t :=
  tagged_of (by simp [Item.digest, viniItem]) h

theorem tagged_comm {env : Env S P} {secret t po : Bytes} {i : Nat} (h : tag env secret dTxinComm i po = some t) :
    (commItem i po).Tagged env secret t :=
  tagged_of (by simp [Item.digest, commItem]) h

theorem tagged_vout {env : Env S P} {secret t o : Bytes} {d : Dst} {i : Nat} (h : hmacVouti env secret d o i = some t) :
    (voutItem env i d o).Tagged env secret t :=
  tagged_of (by simp [Item.digest, voutItem]) h

variable {env : Env S P} {hd : Head S P} {s : List (Event S)} {b : Builder S P} {g : Ghost S}

theorem mem_mapIdx_of {α β : Type} {f : Nat → α → β} {l : List α} {i : Nat} {x : α} (h : l[i]? = some x) : f i x ∈ l.mapIdx f :=
  List.mem_iff_getElem?.2 ⟨i, by rw [List.getElem?_mapIdx, h]; rfl⟩

theorem mapIdx_mem {α β : Type} {f : Nat → α → β} {l : List α} {y : β} (h : y ∈ l.mapIdx f) : ∃ (i : Nat) (x : α), l[i]? = some x ∧ y = f i x := by
  obtain ⟨i, hi⟩ := List.mem_iff_getElem?.1 h
  rw [List.getElem?_mapIdx] at hi
  obtain ⟨x, h1, h2⟩ := Option.map_eq_some_iff.1 hi
  exact ⟨i, x, h1, h2.symm⟩

theorem mem_items {a : Item} {tsx : TsxData} {rnd : Rand S} {hmacs : List Bytes} (hi : initOf s = some (tsx, rnd, hmacs)) : a ∈ items env s ↔
    (∃ (j : Nat) (d : Dst), tsx.outputs[j]? = some d ∧ a = dstItem env j d) ∨
    (∃ (j : Nat) (r : InputRec S), (inputs s)[j]? = some r ∧ a = viniItem env j r.src r.vini) ∨
    (∃ (j : Nat) (r : InputRec S), (inputs s)[j]? = some r ∧ a = commItem j r.pseudoOut) ∨
    (∃ (j : Nat) (r : OutputRec), (outputs s)[j]? = some r ∧ a = voutItem env j r.dst r.ack.txOut) := by
  unfold items
  rw [hi]
  simp only [List.mem_append]
  constructor
  · rintro (((h | h) | h) | h)
    · exact .inl (mapIdx_mem h)
    · exact .inr (.inl (mapIdx_mem h))
    · exact .inr (.inr (.inl (mapIdx_mem h)))
    · exact .inr (.inr (.inr (mapIdx_mem h)))
  · rintro (⟨j, d, h, rfl⟩ | ⟨j, d, h, rfl⟩ | ⟨j, d, h, rfl⟩ | ⟨j, d, h, rfl⟩)
    · exact .inl (.inl (.inl (mem_mapIdx_of (f := dstItem env) h)))
    · exact .inl (.inl (.inr (mem_mapIdx_of (f := fun i (r : InputRec S) => viniItem env i r.src r.vini) h)))
    · exact .inl (.inr (mem_mapIdx_of (f := fun i (r : InputRec S) => commItem i r.pseudoOut) h))
    · exact .inr (mem_mapIdx_of (f := fun i (r : OutputRec) => voutItem env i r.dst r.ack.txOut) h)

/-- Every issued tag is the tag of an item of the session. -/
theorem Inv.issuedItem (hI : Inv env hd s b g) {t : Bytes} (ht : t ∈ issued s) : ∃ a ∈ items env s, a.Tagged env b.keyHmac t := by
  have hm := fun a => mem_items (env := env) (a := a) (initOf_head hI.head)
  rcases hI.issuedFor ht with ⟨j, d, h1, h2⟩ | ⟨j, r, h1, h2, h3⟩ | ⟨j, r, h1, _, h3⟩ | ⟨j, r, h1, h3⟩
  · exact ⟨_, (hm _).2 (.inl ⟨j, d, h1, rfl⟩), tagged_dst h2⟩
  · exact ⟨_, (hm _).2 (.inr (.inl ⟨j, r, h1, rfl⟩)), tagged_vini h3⟩
  · exact ⟨_, (hm _).2 (.inr (.inr (.inl ⟨j, r, h1, rfl⟩))), tagged_comm h3⟩
  · exact ⟨_, (hm _).2 (.inr (.inr (.inr ⟨j, r, h1, rfl⟩))), tagged_vout h3⟩

/-- Every item of the session has an issued tag. -/
theorem Inv.itemIssued (hI : Inv env hd s b g) {a : Item} (ha : a ∈ items env s) : ∃ t ∈ issued s, a.Tagged env b.keyHmac t := by
  have hiss : issued s = hd.hmacs ++ (inputs s).map (·.viniHmac) ++ (inputs s).map (·.pseudoOutHmac) ++ (outputs s).map (·.ack.voutiHmac) := by
    unfold issued; rw [initOf_head hI.head]
  rw [hiss]
  simp only [List.mem_append]
  rcases (mem_items (initOf_head hI.head)).1 ha with ⟨j, d, h, rfl⟩ | ⟨j, r, h, rfl⟩ | ⟨j, r, h, rfl⟩ | ⟨j, r, h, rfl⟩
  · have hm := hI.initOk.hmacsOk
    rw [← hI.keyHmac] at hm
    obtain ⟨hl, hg⟩ := hmacDsts_get hm
    have hj : j < hd.hmacs.length := by rw [hl]; exact (List.getElem?_eq_some_iff.1 h).1
    obtain ⟨d', h1, h2⟩ := hg j _ (List.getElem?_eq_getElem hj)
    rw [h] at h1
    obtain rfl : d = d' := by simpa using h1
    rw [Nat.zero_add] at h2
    exact ⟨_, .inl (.inl (.inl (List.getElem_mem hj))), tagged_dst h2⟩
  · exact ⟨_, .inl (.inl (.inr (List.mem_map_of_mem (f := InputRec.viniHmac) (List.mem_of_getElem? h)))), tagged_vini (hI.inputsOk j r h).1⟩
  · exact ⟨_, .inl (.inr (List.mem_map_of_mem (f := InputRec.pseudoOutHmac) (List.mem_of_getElem? h))), tagged_comm (hI.inputsOk j r h).2.2.1⟩
  · have hjm : j < g.masks.length := by rw [hI.masksLen]; exact (List.getElem?_eq_some_iff.1 h).1
    exact ⟨_, .inr (List.mem_map_of_mem (f := fun r : OutputRec => r.ack.voutiHmac) (List.mem_of_getElem? h)),
      tagged_vout (hI.outputsOk j r _ h (List.getElem?_eq_getElem hjm)).2.1⟩

/-- A right tag is for an item of the session, or the tags are broken. -/
theorem Inv.itemOr (hI : Inv env hd s b g) {a : Item} {t : Bytes} (ht : a.Tagged env b.keyHmac t) :
    a ∈ items env s ∨ Broken env b.keyHmac s a t := by
  by_cases ha : a ∈ items env s
  · exact .inl ha
  refine .inr ⟨ht, ha, ?_⟩
  by_cases hi : t ∈ issued s
  · obtain ⟨x, h1, h2⟩ := hI.issuedItem hi
    exact .inr ⟨x, h1, fun e => ha (e ▸ h1), h2⟩
  · exact .inl hi

theorem items_dst (hI : Inv env hd s b g) (hpb : ∀ x y, env.pbDst x = env.pbDst y → x = y) {i : Nat} {d : Dst} (h : dstItem env i d ∈ items env s) :
    hd.tsx.outputs[i]? = some d := by
  rcases (mem_items (initOf_head hI.head)).1 h with ⟨j, d', h1, e⟩ | ⟨j, r, h1, e⟩ | ⟨j, r, h1, e⟩ | ⟨j, r, h1, e⟩
  · injection e with _ e1 e2
    rw [e1, h1, hpb _ _ e2]
  all_goals (injection e with e0; exact absurd e0 (by decide))

theorem items_vini (hI : Inv env hd s b g) {i : Nat} {src : Src} {v : Bytes} (h : viniItem env i src v ∈ items env s) :
    ∃ r, (inputs s)[i]? = some r ∧ env.pbSrc r.src ++ r.vini = env.pbSrc src ++ v := by
  rcases (mem_items (initOf_head hI.head)).1 h with ⟨j, d', h1, e⟩ | ⟨j, r, h1, e⟩ | ⟨j, r, h1, e⟩ | ⟨j, r, h1, e⟩
  · injection e with e0; exact absurd e0 (by decide)
  · injection e with _ e1 e2
    exact ⟨r, by rw [e1, h1], e2.symm⟩
  all_goals (injection e with e0; exact absurd e0 (by decide))

theorem items_comm (hI : Inv env hd s b g) {i : Nat} {po : Bytes} (h : commItem i po ∈ items env s) :
    ∃ r, (inputs s)[i]? = some r ∧ r.pseudoOut = po := by
  rcases (mem_items (initOf_head hI.head)).1 h with ⟨j, d', h1, e⟩ | ⟨j, r, h1, e⟩ | ⟨j, r, h1, e⟩ | ⟨j, r, h1, e⟩
  · injection e with e0; exact absurd e0 (by decide)
  · injection e with e0; exact absurd e0 (by decide)
  · injection e with _ e1 e2
    exact ⟨r, by rw [e1, h1], e2.symm⟩
  · injection e with e0; exact absurd e0 (by decide)

theorem Inv.permSet_of (hI : Inv env hd s b g) {k : Kind} (hk : k = .vini ∨ k = .sign) (hlen : 0 < (kinds s).count k) : b.state.s.permSet = true := by
  have hst := hI.stage
  cases hs : b.state.s <;> rw [hs] at hst <;> simp only [Stage] at hst <;> first | rfl | skip
  all_goals rcases hk with rfl | rfl
  all_goals first
    | (rw [hst.2.2] at hlen; simp at hlen; done)
    | (obtain ⟨k, _, _, _, hk⟩ := hst; rw [hk] at hlen; simp [List.count_replicate] at hlen; done)
    | (rw [hst.2.2.2] at hlen; simp [List.count_replicate] at hlen; done)

theorem secretOf_eq (hI : Inv env hd s b g) {s' : List (Event S)} (h : initOf s' = some (hd.tsx, hd.rnd, hd.hmacs)) : secretOf env s' = some b.keyHmac := by
  unfold secretOf
  rw [h, Option.bind_some]
  dsimp only
  rw [hI.initOk.pidOk, Option.map_some, hI.keyHmac]
  rfl

theorem outputs_closed_length (hr : ∀ r, env.respOk r = true) {log : List (Event S)} {d : Device S P} (h : Reach env log d)
    {tsx : TsxData} {rnd : Rand S} {hmacs : List Bytes} (hinit : initOf (session env log) = some (tsx, rnd, hmacs))
    (hclosed : .allOut ∈ kinds (session env log)) : (outputs (session env log)).length = tsx.outputs.length := by
  rcases reach_obs hr h with h0 | ⟨hd, s, b, g, hI, e1, e2, e3, e4, e5, e6, e7⟩
  · rw [h0] at hclosed; simp [kinds] at hclosed
  · rw [e6] at hinit
    simp only [Option.some.injEq, Prod.mk.injEq] at hinit
    obtain ⟨rfl, rfl, rfl⟩ := hinit
    have hc : .allOut ∈ kinds s := by
      rcases e7 with ⟨e7, _⟩ | ⟨e7, _⟩ <;> rw [e7] at hclosed
      · exact hclosed
      · simpa using hclosed
    rw [e4, outputs_length]
    obtain ⟨k, hp, _, _, hpre⟩ := hI.stage.prefix
    have a1 := (hpre hc).sublist.count_le Kind.output
    have a2 := hp.sublist.count_le Kind.output
    rw [count_preSign] at a1
    simp [protocol, List.count_append, List.count_replicate] at a1 a2
    omega

end Verif.Signer
