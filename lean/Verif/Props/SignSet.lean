import Verif.Lemmas.SignSet
import Verif.Props.EndToEnd

/-!
C130: several transactions are signed one by one, each with its own confirmation.
-/

namespace Verif.Real
open Verif Ed Edwards Signer Agent Key

/-- No output is a source of both requests. -/
def Apart (o : Outside) (d d' : TxData) : Prop := ∀ s ∈ d.sources, ∀ s' ∈ d'.sources, ∀ x ki x' ki',
  Owns (env o) (tableOf (env o) d) s x ki → Owns (env o) (tableOf (env o) d') s' x' ki' → ki ≠ ki'

/-- A transaction signed for a request, confirmed in step `k`: what comes in goes out, every destination is paid, and the network accepts it. -/
structure Result (o : Outside) (cfg : Config) (rnd : Nat → Rand Fl) (d : TxData) (tx : Tx) (k : Nat) : Prop where
  confirmed : (rnd k).confirm = true
  right : ∃ ins outs groups nonce txKey addKeys, TxOk (env o) cfg d tx ins outs groups nonce txKey addKeys
  accepted : ∃ rings, rings.Perm (d.sources.map (·.outputs)) ∧ Accepted o.hash tx rings

theorem each {o : Outside} (ho : o.Ok) {cfg : Config} {rnd : Nat → Rand Fl} (hrnd : Nat → Nat → Bytes) (ser : Tx → Bytes) :
    ∀ (ds : List TxData) (n : Nat) (c c' : Conn Fl Sub) (blobs : List Bytes), (∀ d ∈ ds, Fits cfg d ∧ Distinct o d) →
      signEach (env o) cfg Wire.codec ser rnd hrnd n ds c = some (blobs, c') →
      ∃ runs : List (Tx × Nat), blobs = runs.map (fun r => ser r.1) ∧ List.Forall₂ (fun d r => Result o cfg rnd d r.1 r.2) ds runs ∧
        (runs.map (·.2)).Pairwise (· < ·) ∧ (∀ r ∈ runs, c.n ≤ r.2) ∧ (ds ≠ [] → c'.dev.saved = none) := by
  intro ds
  induction ds with
  | nil =>
    intro n c c' blobs _ h
    cases h
    exact ⟨[], rfl, .nil, .nil, by simp, by simp⟩
  | cons d ds ih =>
    intro n c c' blobs hd h
    obtain ⟨⟨tx, c1⟩, h1, h2⟩ := Option.bind_eq_some_iff.1 h
    obtain ⟨⟨bs, c2⟩, h3, h4⟩ := Option.map_eq_some_iff.1 h2
    cases h4
    obtain ⟨hf, hdis⟩ := hd d (by simp)
    obtain ⟨runs, e, hall, hp, hge, hs⟩ := ih (n + 1) c1 _ bs (fun x hx => hd x (by simp [hx])) h3
    obtain ⟨hconf, -, hsv, hok⟩ := C74_result_is_right_partial (lawful ho) hf h1
    obtain ⟨-, -, hacc⟩ := C75_obtained_is_accepted_partial ho hf hdis h1
    have hn := signTransaction_n h1
    refine ⟨(tx, c.n) :: runs, by rw [e]; rfl, .cons ⟨hconf, hok, hacc⟩ hall, ?_, ?_, ?_⟩
    · rw [List.map_cons, List.pairwise_cons]
      refine ⟨?_, hp⟩
      intro k hk
      obtain ⟨r, hr, rfl⟩ := List.mem_map.1 hk
      have := hge r hr
      dsimp only
      omega
    · intro r hr
      rcases List.mem_cons.1 hr with rfl | hr
      · exact le_refl _
      · have := hge r hr
        omega
    · intro _
      by_cases he : ds = []
      · subst he
        cases h3
        exact hsv
      · exact hs he

/-- C130. If signing a set returns, there is one serialized transaction for every request, in order. Each is right for its own request and
accepted by the network, each was confirmed by the user in a step of its own, and no session is left on the device. -/
theorem C130_each_partial {o : Outside} (ho : o.Ok) {cfg : Config} {rnd : Nat → Rand Fl} {hrnd : Nat → Nat → Bytes} {ser : Tx → Bytes}
    {ds : List TxData} {c c' : Conn Fl Sub} {blobs : List Bytes} (hd : ∀ d ∈ ds, Fits cfg d ∧ Distinct o d)
    (h : signUnsigned (env o) cfg Wire.codec ser rnd hrnd ds c = some (blobs, c')) :
    ∃ runs : List (Tx × Nat), blobs = runs.map (fun r => ser r.1) ∧ List.Forall₂ (fun d r => Result o cfg rnd d r.1 r.2) ds runs ∧
      (runs.map (·.2)).Pairwise (· < ·) ∧ (ds ≠ [] → c'.dev.saved = none) := by
  obtain ⟨runs, h1, h2, h3, -, h5⟩ := each ho hrnd ser ds 0 c c' blobs hd h
  exact ⟨runs, h1, h2, h3, h5⟩

/-- C130. The same for a single request and for a list of them. -/
theorem C130_job_partial {o : Outside} (ho : o.Ok) {cfg : Config} {rnd : Nat → Rand Fl} {hrnd : Nat → Nat → Bytes} {ser : Tx → Bytes}
    {ds : List TxData} {job : Job} (hj : job = .list ds ∨ ∃ d, job = .one d ∧ ds = [d]) {c c' : Conn Fl Sub} {blobs : List Bytes}
    (hd : ∀ d ∈ ds, Fits cfg d ∧ Distinct o d) (h : signTx (env o) cfg Wire.codec ser rnd hrnd job c = some (blobs, c')) :
    ∃ runs : List (Tx × Nat), blobs = runs.map (fun r => ser r.1) ∧ List.Forall₂ (fun d r => Result o cfg rnd d r.1 r.2) ds runs ∧
      (runs.map (·.2)).Pairwise (· < ·) ∧ (ds ≠ [] → c'.dev.saved = none) := by
  have e : job.data = ds := by
    rcases hj with rfl | ⟨d, rfl, rfl⟩ <;> rfl
  unfold signTx at h
  rw [e] at h
  obtain ⟨runs, h1, h2, h3, -, h5⟩ := each ho hrnd ser ds 0 c c' blobs hd h
  exact ⟨runs, h1, h2, h3, h5⟩

theorem honest_each {o : Outside} (ho : o.Ok) {cfg : Config} {rnd : Nat → Rand Fl} (hrnd : Nat → Nat → Bytes) (ser : Tx → Bytes)
    (hyes : ∀ k, (rnd k).confirm = true ∧ (rnd k).uiOk = true) : ∀ (ds : List TxData) (n : Nat) (c : Conn Fl Sub), (∀ d ∈ ds, Request o cfg d) →
      ∃ blobs c', signEach (env o) cfg Wire.codec ser rnd hrnd n ds c = some (blobs, c') ∧ blobs.length = ds.length := by
  intro ds
  induction ds with
  | nil => intro n c _; exact ⟨[], c, rfl, rfl⟩
  | cons d ds ih =>
    intro n c hd
    obtain ⟨tx, c1, -, h1, -, -⟩ := C75_honest_is_accepted ho (hd d (by simp)) rnd (hrnd n) c ⟨(hyes _).1, fun k => (hyes k).2⟩
    obtain ⟨bs, c2, h2, hl⟩ := ih (n + 1) c1 fun x hx => hd x (by simp [hx])
    refine ⟨ser tx :: bs, c2, ?_, by simp [hl]⟩
    rw [signEach, h1, Option.bind_some, h2]
    rfl

/-- C130. Honest requests are all signed, one after the other on the same device, when the user confirms each. -/
theorem C130_honest {o : Outside} (ho : o.Ok) {cfg : Config} {rnd : Nat → Rand Fl} (hrnd : Nat → Nat → Bytes) (ser : Tx → Bytes)
    (hyes : ∀ k, (rnd k).confirm = true ∧ (rnd k).uiOk = true) {ds : List TxData} (hd : ∀ d ∈ ds, Request o cfg d) (c : Conn Fl Sub) :
    ∃ blobs c', signUnsigned (env o) cfg Wire.codec ser rnd hrnd ds c = some (blobs, c') ∧ blobs.length = ds.length :=
  honest_each ho hrnd ser hyes ds 0 c hd

/-- Three honest requests. -/
example : ∃ blobs c', signUnsigned (env Demo.parts) ⟨10, 1⟩ Wire.codec (fun tx => tx.extra) Demo.draws (fun _ _ => []) (List.replicate 3 (Demo.request 1)) ⟨{}, 0⟩ =
    some (blobs, c') ∧ blobs.length = 3 :=
  C130_honest Demo.ok _ _ (fun _ => ⟨rfl, rfl⟩) (fun d hd => by rw [(List.mem_replicate.1 hd).2]; exact Demo.is_request) _

/-- C130. Transactions for requests that have no source in common spend different outputs: none of their key images is the same. -/
theorem C130_together {o : Outside} {cfg : Config} {rnd : Nat → Rand Fl} {ds : List TxData} {runs : List (Tx × Nat)}
    (hr : List.Forall₂ (fun d r => Result o cfg rnd d r.1 r.2) ds runs) (ha : ds.Pairwise (Apart o)) :
    runs.Pairwise fun r r' => ∀ v ∈ r.1.vin, ∀ v' ∈ r'.1.vin, v.ki ≠ v'.ki := by
  induction hr with
  | nil => exact .nil
  | @cons d r ds runs h hs ih =>
    rw [List.pairwise_cons] at ha ⊢
    refine ⟨?_, ih ha.2⟩
    intro r' hr' v hv v' hv' he
    obtain ⟨i, hi, rfl⟩ := List.mem_iff_getElem.1 hr'
    have hi' : i < ds.length := by rw [hs.length_eq]; exact hi
    have hres : Result o cfg rnd ds[i] runs[i].1 runs[i].2 := hs.get hi' hi
    have hap := ha.1 ds[i] (List.getElem_mem _)
    obtain ⟨ins, outs, g, no, tk, ak, h1⟩ := h.right
    obtain ⟨ins', outs', g', no', tk', ak', h1'⟩ := hres.right
    rw [h1.vin] at hv
    rw [h1'.vin] at hv'
    obtain ⟨a, hamem, rfl⟩ := List.mem_map.1 hv
    obtain ⟨b, hbmem, rfl⟩ := List.mem_map.1 hv'
    refine hap a.src (h1.sources.mem_iff.1 (List.mem_map_of_mem hamem)) b.src (h1'.sources.mem_iff.1 (List.mem_map_of_mem hbmem)) _ _ _ _
      (h1.mine a hamem) (h1'.mine b hbmem) ?_
    exact Bp.enc_injective he

/-- A signed set that meets the hypotheses. -/
example : ∃ runs : List (Tx × Nat), runs.length = 1 ∧ List.Forall₂ (fun d r => Result Demo.parts ⟨10, 1⟩ Demo.draws d r.1 r.2) [Demo.request 1] runs ∧
    [Demo.request 1].Pairwise (Apart Demo.parts) := by
  have hr := Demo.is_request
  obtain ⟨blobs, c', h, -⟩ := C130_honest Demo.ok (fun _ _ => []) (fun tx => tx.extra) (rnd := Demo.draws) (fun _ => ⟨rfl, rfl⟩)
    (ds := [Demo.request 1]) (by simpa using hr) ⟨{}, 0⟩
  obtain ⟨runs, -, h2, -⟩ := C130_each_partial Demo.ok (by simpa using ⟨⟨hr.version, hr.hf, hr.fewSources, hr.fewDsts, hr.amounts⟩, hr.distinct⟩) h
  exact ⟨runs, h2.length_eq.symm, h2, List.pairwise_singleton _ _⟩

/-- C130 is false of a set that spends an output twice: neither the host nor the device remembers the earlier transactions. Both are signed and each
alone is accepted, but they have the same key image, so only one of them can be. -/
theorem C130_false_shared_source : ∃ (o : Outside) (d : TxData) (rnd : Nat → Rand Fl) (tx tx' : Tx) (c' : Conn Fl Sub), o.Ok ∧ Request o ⟨10, 1⟩ d ∧
    (∀ ser : Tx → Bytes, signUnsigned (env o) ⟨10, 1⟩ Wire.codec ser rnd (fun _ _ => []) [d, d] ⟨{}, 0⟩ = some ([ser tx, ser tx'], c')) ∧
    (∃ rings, Accepted o.hash tx rings) ∧ (∃ rings, Accepted o.hash tx' rings) ∧ ∃ v ∈ tx.vin, ∃ v' ∈ tx'.vin, v.ki = v'.ki := by
  obtain ⟨tx, c1, ins, outs, g, no, tk, ak, h1, -, h2⟩ :=
    C72_honest_signing_completes (lawful Demo.ok) (honest Demo.ok Demo.is_request) Demo.draws (fun _ => []) ⟨{}, 0⟩ Demo.agrees
  obtain ⟨tx', c2, ins', outs', g', no', tk', ak', h1', -, h2'⟩ :=
    C72_honest_signing_completes (lawful Demo.ok) (honest Demo.ok Demo.is_request) Demo.draws (fun _ => []) c1 ⟨rfl, fun _ => rfl⟩
  refine ⟨Demo.parts, Demo.request 1, Demo.draws, tx, tx', c2, Demo.ok, Demo.is_request, ?_, ⟨_, accepted Demo.ok h2 Demo.is_request.distinct⟩,
    ⟨_, accepted Demo.ok h2' Demo.is_request.distinct⟩, ?_⟩
  · intro ser
    simp only [signUnsigned, signEach, h1, h1', Option.bind_some, Option.map_some]
  · have hsrc : ∀ {l : List (Spent Fl Sub)}, (l.map (·.src)).Perm (Demo.request 1).sources → ∃ i, l = [i] ∧ i.src = Demo.source := by
      intro l hl
      rw [show (Demo.request 1).sources = [Demo.source] from rfl, List.perm_singleton] at hl
      rcases l with _ | ⟨i, _ | ⟨j, l⟩⟩ <;> simp_all
    obtain ⟨i, rfl, hi⟩ := hsrc h2.sources
    obtain ⟨j, rfl, hj⟩ := hsrc h2'.sources
    have ho := h2.mine i (by simp)
    have ho' := h2'.mine j (by simp)
    rw [hi] at ho
    rw [hj] at ho'
    refine ⟨_, by rw [h2.vin]; exact List.mem_singleton_self _, _, by rw [h2'.vin]; exact List.mem_singleton_self _, ?_⟩
    exact congrArg Bp.enc (owns_unique ho ho')

/-- C130 is false of refusals: transactions that were confirmed and signed are lost when a later one is refused. Here the first of two is signed, the
user refuses the second, and nothing is returned. -/
theorem C130_false_refused : ∃ (o : Outside) (d : TxData) (rnd : Nat → Rand Fl) (tx : Tx) (c1 : Conn Fl Sub), o.Ok ∧ Request o ⟨10, 1⟩ d ∧
    signTransaction (env o) ⟨10, 1⟩ Wire.codec rnd (fun _ => []) d ⟨{}, 0⟩ = some (tx, c1) ∧ (∃ rings, Accepted o.hash tx rings) ∧
    ∀ ser : Tx → Bytes, signUnsigned (env o) ⟨10, 1⟩ Wire.codec ser rnd (fun _ _ => []) [d, d] ⟨{}, 0⟩ = none := by
  let rnd : Nat → Rand Fl := fun k => { Demo.draws k with confirm := k == 0 }
  obtain ⟨tx, c1, rings, h1, -, h2⟩ := C75_honest_is_accepted Demo.ok Demo.is_request rnd (fun _ => []) ⟨{}, 0⟩ ⟨rfl, fun _ => rfl⟩
  refine ⟨Demo.parts, Demo.request 1, rnd, tx, c1, Demo.ok, Demo.is_request, h1, ⟨rings, h2⟩, ?_⟩
  intro ser
  have hno : signTransaction (env Demo.parts) ⟨10, 1⟩ Wire.codec rnd (fun _ => []) (Demo.request 1) c1 = none := by
    rw [Option.eq_none_iff_forall_not_mem]
    rintro ⟨tx', c2⟩ h
    have hr := Demo.is_request
    have hc := (C74_result_is_right_partial (lawful Demo.ok) ⟨hr.version, hr.hf, hr.fewSources, hr.fewDsts, hr.amounts⟩ h).1
    have hn := signTransaction_n h1
    have h0 : c1.n = 0 := by simpa [rnd] using hc
    rw [h0] at hn
    exact absurd hn (by simp)
  simp only [signUnsigned, signEach, h1, hno, Option.bind_some, Option.bind_none, Option.map_none]

end Verif.Real
