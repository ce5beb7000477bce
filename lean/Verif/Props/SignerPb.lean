import Verif.Lemmas.SignerPb
import Verif.Props.SignerTags

/-!
C05, C06 with the bytes the message classes of the repository really give: what the device's tags pin.
-/

set_option linter.unusedSectionVars false

namespace Verif.Signer
open Verif Pb
variable {S P : Type} [CommRing S] [AddCommGroup P] [Module S P] [DecidableEq S] [DecidableEq P]

/-- What a presented source entry and prefix input may be when the tag of the registered input `r` is presented with them: the registered ones, or the
registered ones with the optional `subaddr_minor` (key 80) moved from the end of the entry to the front of the prefix input. -/
def Presents (src : Src) (vini : Bytes) (r : InputRec S) : Prop :=
  (src = r.src ∧ vini = r.vini) ∨
  ∃ n, r.src.subaddrMinor = some n ∧ src = { r.src with subaddrMinor := none } ∧ vini = 80 :: (Varint.dumpNat n ++ r.vini)

theorem presents {r : InputRec S} {src : Src} {vini : Bytes} (hv : ∃ t, r.vini = 2 :: t) (h : r.src.pb ++ r.vini = src.pb ++ vini) :
    Presents src vini r := by
  obtain ⟨h1, h2⟩ := Src.pb_prefix h
  unfold minor at h2
  have mk : ∀ m, src.subaddrMinor = m → src = { r.src with subaddrMinor := m } := by
    intro m hm
    have : src = { { src with subaddrMinor := none } with subaddrMinor := m } := by rw [← hm]
    rw [this, ← h1]
  cases ha : r.src.subaddrMinor with
  | none =>
    rw [ha] at h2
    cases hb : src.subaddrMinor with
    | none =>
      rw [hb] at h2
      exact Or.inl ⟨by rw [mk _ hb, ← ha], h2.symm⟩
    | some n =>
      rw [hb] at h2
      obtain ⟨t, ht⟩ := hv
      rw [ht] at h2
      simp at h2
  | some n =>
    rw [ha] at h2
    cases hb : src.subaddrMinor with
    | none =>
      rw [hb] at h2
      exact Or.inr ⟨n, ha, mk _ hb, by simpa using h2.symm⟩
    | some k =>
      rw [hb] at h2
      simp only [List.cons_append, List.cons.injEq, true_and] at h2
      obtain ⟨h3, h4⟩ := Varint.dumpNat_append_inj h2
      exact Or.inl ⟨by rw [mk _ hb, ← h3, ← ha], h4.symm⟩

theorem vini_head {env : Env S P} (hr : ∀ r, env.respOk r = true) {log : List (Event S)} {d : Device S P} (h : Reach env log d)
    {pos : Nat} {r : InputRec S} (hp : (inputs (session env log))[pos]? = some r) : ∃ t, r.vini = 2 :: t := by
  rcases reach_obs hr h with h0 | ⟨hd, s, b, g, hI, e1, _⟩
  · rw [h0] at hp; simp [inputs] at hp
  · rw [e1] at hp
    obtain ⟨_, _, _, _, subs, real, outKey, txKey, addKeys, xi, ki, k, _, _, _, _, _, hv, _⟩ := hI.inputsOk pos r hp
    exact ⟨_, hv⟩

/-- C05 with the repository's encoding: a prefix input accepted with a tag issued in the session is, with its source entry, the one registered at the position the
permutation names, up to a `subaddr_minor` moved across the boundary. -/
theorem C05_prefix_input_real {env : Env S P} (hB : Binding env) (hpb : env.pbSrc = Src.pb) (hr : ∀ r, env.respOk r = true)
    {log : List (Event S)} {d : Device S P} (h : Reach env log d) {i : Nat} {v : ViniRec}
    (hv : (vinis (session env log))[i]? = some v) (hissued : v.hmac ∈ issued (session env log)) :
    ∃ p pos r, perms (session env log) = [p] ∧ p[i]? = some pos ∧ (inputs (session env log))[pos]? = some r ∧
      v.hmac = r.viniHmac ∧ Presents v.src v.vini r := by
  obtain ⟨p, pos, r, h1, h2, h3, h4, h5⟩ := C05_prefix_input_partial hB hr h hv hissued
  rw [hpb] at h5
  exact ⟨p, pos, r, h1, h2, h3, h4.symm, presents (vini_head hr h h3) h5⟩

/-- C05 with the repository's encoding, signing phase. -/
theorem C05_signed_input_real {env : Env S P} (hB : Binding env) (hpb : env.pbSrc = Src.pb) (hr : ∀ r, env.respOk r = true)
    {log : List (Event S)} {d : Device S P} (h : Reach env log d) {i : Nat} {v : SignRec}
    (hv : (signs (session env log))[i]? = some v) (hissued : v.viniHmac ∈ issued (session env log)) :
    ∃ p pos r, perms (session env log) = [p] ∧ p[i]? = some pos ∧ (inputs (session env log))[pos]? = some r ∧
      v.viniHmac = r.viniHmac ∧ Presents v.src v.vini r := by
  obtain ⟨p, pos, r, h1, h2, h3, h4, h5⟩ := C05_signed_input_partial hB hr h hv hissued
  rw [hpb] at h5
  exact ⟨p, pos, r, h1, h2, h3, h4.symm, presents (vini_head hr h h3) h5⟩

/-- C05 in full for the entries the agent sends, which never carry a `subaddr_minor`: prefix inputs are the registered ones. -/
theorem C05_prefix_input {env : Env S P} (hB : Binding env) (hpb : env.pbSrc = Src.pb) (hr : ∀ r, env.respOk r = true)
    {log : List (Event S)} {d : Device S P} (h : Reach env log d)
    (hn : ∀ r ∈ inputs (session env log), r.src.subaddrMinor = none) {i : Nat} {v : ViniRec}
    (hv : (vinis (session env log))[i]? = some v) (hissued : v.hmac ∈ issued (session env log)) :
    ∃ p pos r, perms (session env log) = [p] ∧ p[i]? = some pos ∧ (inputs (session env log))[pos]? = some r ∧
      v = ⟨r.src, r.vini, r.viniHmac⟩ := by
  obtain ⟨p, pos, r, h1, h2, h3, h4, h5 | ⟨n, h5, _⟩⟩ := C05_prefix_input_real hB hpb hr h hv hissued
  · exact ⟨p, pos, r, h1, h2, h3, by rw [← h4, ← h5.1, ← h5.2]⟩
  · rw [hn r (List.mem_of_getElem? h3)] at h5; cases h5

/-- C05 in full for the entries the agent sends: signed inputs are the registered ones. -/
theorem C05_signed_input {env : Env S P} (hB : Binding env) (hpb : env.pbSrc = Src.pb) (hr : ∀ r, env.respOk r = true)
    {log : List (Event S)} {d : Device S P} (h : Reach env log d)
    (hn : ∀ r ∈ inputs (session env log), r.src.subaddrMinor = none) {i : Nat} {v : SignRec}
    (hv : (signs (session env log))[i]? = some v) (hissued : v.viniHmac ∈ issued (session env log)) :
    ∃ p pos r, perms (session env log) = [p] ∧ p[i]? = some pos ∧ (inputs (session env log))[pos]? = some r ∧
      v.src = r.src ∧ v.vini = r.vini := by
  obtain ⟨p, pos, r, h1, h2, h3, h4, h5 | ⟨n, h5, _⟩⟩ := C05_signed_input_real hB hpb hr h hv hissued
  · exact ⟨p, pos, r, h1, h2, h3, h5⟩
  · rw [hn r (List.mem_of_getElem? h3)] at h5; cases h5

/-- C06 with the repository's encoding, without an assumption about it: the accepted destinations are exactly the confirmed list. -/
theorem C06_outputs_real {env : Env S P} (hB : Binding env) (hpb : env.pbDst = Dst.pb) (hr : ∀ r, env.respOk r = true)
    {log : List (Event S)} {d : Device S P} (h : Reach env log d)
    {tsx : TsxData} {rnd : Rand S} {hmacs : List Bytes} (hinit : initOf (session env log) = some (tsx, rnd, hmacs))
    (hissued : ∀ o ∈ outputs (session env log), o.hmac ∈ issued (session env log))
    (hclosed : .allOut ∈ kinds (session env log)) :
    rnd.confirm = true ∧ (outputs (session env log)).map (·.dst) = tsx.outputs :=
  C06_outputs_confirmed hB (fun x y e => by rw [hpb] at e; exact Dst.pb_inj e) hr h hinit hissued hclosed

/-- Demo primitives with the repository's encodings. -/
def pbEnv : Env Int Int := { Demo.env with pbSrc := Src.pb, pbDst := Dst.pb }

theorem pbEnv_binding : Binding pbEnv := ⟨Demo.binding.keyLen, Demo.binding.keyInj, Demo.binding.macInj, Demo.binding.hashInj⟩

/-- A complete session with two inputs meets the hypotheses. -/
example : ∃ (log : List (Event Int)) (d : Device Int Int), Reach pbEnv log d ∧
    (signs (session pbEnv log)).length = 2 ∧ (vinis (session pbEnv log)).length = 2 ∧
    (∀ r ∈ inputs (session pbEnv log), r.src.subaddrMinor = none) ∧
    (∀ v ∈ signs (session pbEnv log), v.viniHmac ∈ issued (session pbEnv log)) ∧
    (∀ v ∈ vinis (session pbEnv log), v.hmac ∈ issued (session pbEnv log)) ∧
    (∀ o ∈ outputs (session pbEnv log), o.hmac ∈ issued (session pbEnv log)) ∧ .allOut ∈ kinds (session pbEnv log) := by
  refine ⟨_, _, Demo.drive_reach (Demo.honest 2) .start, ?_, ?_, ?_, ?_, ?_, ?_, ?_⟩ <;> decide +kernel

/-- The host presents the prefix input with the bytes of the last field of the entry in front of it. -/
def movingHostPb : Demo.Host :=
  [Demo.mInit (Demo.tsx 1 [Demo.dst 1, Demo.dst2 5] [2] 2), Demo.mInput srcMinor 10, Demo.mPerm [0],
   fun log => match (inputs log)[0]? with
     | some r => (.inputVini (Demo.src 7 7) (80 :: (Varint.dumpNat 3 ++ r.vini)) r.viniHmac, Demo.rnd 0)
     | none => (.malformed, Demo.rnd 0),
   Demo.mAllIn, Demo.mOut (Demo.dst 1) 0, Demo.mOut (Demo.dst2 5) 1, Demo.mAllOut, Demo.mSign 0, Demo.mFinal]

def movedLog : List (Event Int) := (Demo.drive pbEnv movingHostPb [] {}).1

/-- C05, disagreement with the repository's encoding: the second case of `Presents` happens. A host that only replays issued tags gets a prefix input accepted, and
the transaction signed, that the device never produced. -/
theorem C05_false_moved : ∃ (log : List (Event Int)) (d : Device Int Int), Reach pbEnv log d ∧ Binding pbEnv ∧ (∀ r, pbEnv.respOk r = true) ∧
    kinds (session pbEnv log) = protocol 1 1 2 ∧
    ∃ v, (vinis (session pbEnv log))[0]? = some v ∧ v.hmac ∈ issued (session pbEnv log) ∧
      ∀ r ∈ inputs (session pbEnv log), r.vini ≠ v.vini ∧ r.src ≠ v.src := by
  have h1 : kinds (session pbEnv movedLog) = protocol 1 1 2 := by decide +kernel
  have h2 : ((vinis (session pbEnv movedLog))[0]?.any fun v =>
      decide (v.hmac ∈ issued (session pbEnv movedLog)) &&
      (inputs (session pbEnv movedLog)).all fun r => decide (r.vini ≠ v.vini) && decide (r.src ≠ v.src)) = true := by decide +kernel
  refine ⟨_, _, Demo.drive_reach movingHostPb .start, pbEnv_binding, fun _ => rfl, h1, ?_⟩
  change ∃ v, (vinis (session pbEnv movedLog))[0]? = some v ∧ v.hmac ∈ issued (session pbEnv movedLog) ∧
      ∀ r ∈ inputs (session pbEnv movedLog), r.vini ≠ v.vini ∧ r.src ≠ v.src
  cases hv : (vinis (session pbEnv movedLog))[0]? with
  | none => rw [hv] at h2; simp at h2
  | some v =>
    rw [hv] at h2
    simp only [Option.any_some, Bool.and_eq_true, decide_eq_true_eq, List.all_eq_true] at h2
    exact ⟨v, rfl, h2.1, h2.2⟩

end Verif.Signer
