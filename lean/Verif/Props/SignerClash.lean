import Verif.Lemmas.SignerClash
import Verif.Props.Pays

/-!
C115: pinning by tags without idealised primitives, and without the assumption that the host presents only tags it was given.
-/

set_option linter.unusedSectionVars false

namespace Verif.Signer
open Verif
variable {S P : Type} [CommRing S] [AddCommGroup P] [Module S P] [DecidableEq S] [DecidableEq P]

/-- C115. For any hash and tag functions and any host, every session has one secret such that the tags it issued are exactly the tags of its items, and
everything the host gets accepted later is what the device issued the tag for, or the host broke the tags with the very string it presented:

* a destination accepted as output `i` is the destination `i` the user confirmed;
* the `i`-th prefix input, and the `i`-th signed one, with its source entry, is the one registered at the position the permutation names;
* the pseudo output used for the `i`-th signature is the one made for that input, unless the device computes it itself. -/
theorem C115_pinned {env : Env S P} (hpb : env.pbDst = Dst.pb) (hr : ∀ r, env.respOk r = true)
    {log : List (Event S)} {d : Device S P} (h : Reach env log d) {tsx : TsxData} {rnd : Rand S} {hmacs : List Bytes}
    (hinit : initOf (session env log) = some (tsx, rnd, hmacs)) :
    ∃ secret, secretOf env (session env log) = some secret ∧ let s := session env log
      (∀ t ∈ issued s, ∃ a ∈ items env s, a.Tagged env secret t) ∧ (∀ a ∈ items env s, ∃ t ∈ issued s, a.Tagged env secret t) ∧
      rnd.confirm = true ∧
      (∀ (i : Nat) (o : OutputRec), (outputs s)[i]? = some o →
        tsx.outputs[i]? = some o.dst ∨ Broken env secret s (dstItem env i o.dst) o.hmac) ∧
      (∀ (i : Nat) (v : ViniRec), (vinis s)[i]? = some v → ∃ p pos, perms s = [p] ∧ p[i]? = some pos ∧
        ((∃ r, (inputs s)[pos]? = some r ∧ env.pbSrc r.src ++ r.vini = env.pbSrc v.src ++ v.vini) ∨
          Broken env secret s (viniItem env pos v.src v.vini) v.hmac)) ∧
      (∀ (i : Nat) (v : SignRec), (signs s)[i]? = some v → ∃ p pos, perms s = [p] ∧ p[i]? = some pos ∧
        ((∃ r, (inputs s)[pos]? = some r ∧ env.pbSrc r.src ++ r.vini = env.pbSrc v.src ++ v.vini) ∨
          Broken env secret s (viniItem env pos v.src v.vini) v.viniHmac) ∧
        ((pos + 1 = tsx.numInputs ∧ (2 ≤ tsx.bpVersion ∨ 0 < tsx.clientVersion)) ∨
          (∃ r, (inputs s)[pos]? = some r ∧ r.pseudoOut = v.pseudoOut) ∨
          Broken env secret s (commItem pos v.pseudoOut) v.pseudoOutHmac)) := by
  rcases reach_obs hr h with h0 | ⟨hd, s, b, g, hI, e1, e2, e3, e4, e5, e6, _⟩
  · rw [h0] at hinit; simp [initOf] at hinit
  have e6' := e6
  rw [hinit] at e6'
  simp only [Option.some.injEq, Prod.mk.injEq] at e6'
  obtain ⟨rfl, rfl, rfl⟩ := e6'
  have hiss : issued (session env log) = issued s := by unfold issued; rw [e1, e4, e6, initOf_head hI.head]
  have hit : items env (session env log) = items env s := by unfold items; rw [e1, e4, e6, initOf_head hI.head]
  have hbr : ∀ {a : Item} {t : Bytes}, Broken env b.keyHmac s a t → Broken env b.keyHmac (session env log) a t := by
    intro a t hb
    exact ⟨hb.tagged, by rw [hit]; exact hb.fresh, by rw [hit, hiss]; exact hb.how⟩
  refine ⟨b.keyHmac, secretOf_eq hI e6, ?_⟩
  dsimp only
  rw [hiss, hit, e4, e3, e5, e2, e1]
  refine ⟨fun t ht => hI.issuedItem ht, fun a ha => hI.itemIssued ha, hI.initOk.confirmed, ?_, ?_, ?_⟩
  · intro i o ho
    have hi : i < g.masks.length := by rw [hI.masksLen]; exact (List.getElem?_eq_some_iff.1 ho).1
    rcases hI.itemOr (tagged_dst (hI.outputsOk i o _ ho (List.getElem?_eq_getElem hi)).1) with hx | hx
    · exact .inl (items_dst hI (fun x y e => by rw [hpb] at e; exact Dst.pb_inj e) hx)
    · exact .inr (hbr hx)
  · intro i v hv
    obtain ⟨pos, hp, hm⟩ := hI.vinisOk i v hv
    have hs := hI.permSet_of (.inl rfl) (by rw [← vinis_length]; exact List.length_pos_iff.2 (fun hc => by simp [hc] at hv))
    refine ⟨b.perm, pos, hI.perm hs, hp, ?_⟩
    rcases hI.itemOr (tagged_vini hm) with hx | hx
    · exact .inl (items_vini hI hx)
    · exact .inr (hbr hx)
  · intro i v hv
    have hi : i < (signs s).length := (List.getElem?_eq_some_iff.1 hv).1
    have hd1 : i < g.dec.length := by rw [hI.signLen.1]; exact hi
    have hd2 : i < g.used.length := by rw [hI.signLen.2]; exact hi
    obtain ⟨pos, kA, aB, kS, sB, real, full, pOut, rnd, hp, hm, _, _, _, _, _, _, _, _, _, _, _, hcase⟩ :=
      hI.signsOk i v _ _ hv (List.getElem?_eq_getElem hd1) (List.getElem?_eq_getElem hd2)
    have hs := hI.permSet_of (.inr rfl) (by rw [← signs_length]; omega)
    refine ⟨b.perm, pos, hI.perm hs, hp, ?_, ?_⟩
    · rcases hI.itemOr (tagged_vini hm) with hx | hx
      · exact .inl (items_vini hI hx)
      · exact .inr (hbr hx)
    · rcases hcase with ⟨h1, h2, _⟩ | ⟨_, h1, _⟩
      · left
        rw [hI.modes.2.2] at h1
        rw [hI.counts.1] at h2
        exact ⟨h2, by simpa using h1⟩
      · right
        rcases hI.itemOr (tagged_comm h1) with hx | hx
        · exact .inl (items_comm hI hx)
        · exact .inr (hbr hx)

/-- C115: the secret has 32 bytes if the hash has. -/
theorem C115_secret {env : Env S P} (hk : ∀ x, (env.keccak2 x).length = 32) {s : List (Event S)} {secret : Bytes} (h : secretOf env s = some secret) :
    secret.length = 32 := by
  obtain ⟨x, _, h⟩ := Option.bind_eq_some_iff.1 h
  obtain ⟨p, _, h⟩ := Option.map_eq_some_iff.1 h
  rw [← h]
  exact hk _

/-- The premises are met: a complete session with two inputs and two outputs, eight tags issued for eight items. -/
example : ∃ (log : List (Event Int)) (d : Device Int Int), Reach pbEnv log d ∧ (initOf (session pbEnv log)).isSome = true ∧
    (issued (session pbEnv log)).length = 8 ∧ (items pbEnv (session pbEnv log)).length = 8 ∧ (outputs (session pbEnv log)).length = 2 ∧
    (vinis (session pbEnv log)).length = 2 ∧ (signs (session pbEnv log)).length = 2 ∧ (secretOf pbEnv (session pbEnv log)).isSome = true := by
  refine ⟨_, _, Demo.drive_reach (Demo.honest 2) .start, ?_, ?_, ?_, ?_, ?_, ?_, ?_⟩ <;> decide +kernel

/-- C115: two different items with the same tag exhibit a collision of named strings: the two key buffers, the two contents, or the inputs of the two tags. -/
theorem C115_clash {env : Env S P} {secret t : Bytes} {a b : Item} (hs : secret.length = 32) (hne : a ≠ b)
    (ha : a.Tagged env secret t) (hb : b.Tagged env secret t) : Collides env secret a b := by
  obtain ⟨_, ⟨x, hx, rfl⟩, e1⟩ := ha
  obtain ⟨_, ⟨y, hy, rfl⟩, e2⟩ := hb
  have he := e1.symm.trans e2
  by_cases hm : env.keccak2 x = env.keccak2 y ∧ a.digest env = b.digest env
  · obtain ⟨h1, h2⟩ := hm
    by_cases hxy : x = y
    · subst hxy
      obtain ⟨hp, hi⟩ := C13_buffers_separate hs hx hy
      have hc : a.content ≠ b.content := by
        intro hc
        exact hne (by cases a; cases b; simp only at hp hi hc; rw [hp, hi, hc])
      unfold Item.digest at h2
      rw [hp] at h2
      split at h2
      · exact absurd h2 hc
      · exact .contents hc h2
    · exact .keys x y hx hy hxy h1
  · exact .tags x y hx hy hm he

/-- C115: so whoever breaks the tags presented a tag the device never issued, for a string it never tagged, or found a collision with something the
device did tag in the session. -/
theorem C115_broken {env : Env S P} {secret t : Bytes} {a : Item} {s : List (Event S)} (hs : secret.length = 32) (h : Broken env secret s a t) :
    t ∉ issued s ∨ ∃ b ∈ items env s, Collides env secret b a := by
  rcases h.how with h1 | ⟨b, h1, h2, h3⟩
  · exact .inl h1
  · exact .inr ⟨b, h1, C115_clash hs h2 h3 h.tagged⟩

/-- C115: a signature pays what the user confirmed, or the host broke the tag of one of the destinations it presented. No assumption on the hash and tag
functions, and none on the host. -/
theorem C115_payment {env : Env S P} (hpb : env.pbDst = Dst.pb) (hr : ∀ r, env.respOk r = true)
    {log : List (Event S)} {d : Device S P} (h : Reach env log d) {v : SignRec} (hv : v ∈ signs (session env log)) :
    ConfirmedPayment env log v ∨ ∃ (secret : Bytes) (i : Nat) (o : OutputRec), secretOf env (session env log) = some secret ∧
      (outputs (session env log))[i]? = some o ∧ Broken env secret (session env log) (dstItem env i o.dst) o.hmac := by
  by_cases hb : ∃ (secret : Bytes) (i : Nat) (o : OutputRec), secretOf env (session env log) = some secret ∧
      (outputs (session env log))[i]? = some o ∧ Broken env secret (session env log) (dstItem env i o.dst) o.hmac
  · exact .inr hb
  refine .inl (confirmed_payment hr h (fun tsx rnd hmacs hinit hclosed => ?_) hv)
  obtain ⟨m, hm, _, _, hconf, hout, _⟩ := C115_pinned hpb hr h hinit
  refine ⟨hconf, ?_⟩
  have hlen : (outputs (session env log)).length = tsx.outputs.length := outputs_closed_length hr h hinit hclosed
  apply List.ext_getElem?
  intro i
  rw [List.getElem?_map]
  cases ho : (outputs (session env log))[i]? with
  | none =>
    have := List.getElem?_eq_none_iff.1 ho
    simp only [Option.map_none]
    exact (List.getElem?_eq_none_iff.2 (by omega)).symm
  | some o =>
    rcases hout i o ho with h1 | h1
    · rw [h1]; rfl
    · exact absurd ⟨m, i, o, hm, ho, h1⟩ hb

/-- Demo primitives whose tags do not depend on the key or the message. -/
def weakEnv : Env Int Int := { pbEnv with mac := fun _ _ => [7] }

/-- The host sends the first output to another address than the confirmed one. -/
def swapHost : Demo.Host :=
  [Demo.mInit (Demo.tsx 2 [Demo.dst 1, Demo.dst2 3] [2] 2), Demo.mInput (Demo.src 2 7) 10, Demo.mInput (Demo.src 3 8) 20, Demo.mPerm [1, 0], Demo.mVini 1,
   Demo.mVini 0, Demo.mAllIn, Demo.mOut (Demo.dst2 1) 0, Demo.mOut (Demo.dst2 3) 1, Demo.mAllOut, Demo.mSign 1, Demo.mSign 0, Demo.mFinal]

/-- The second alternative of `C115_payment` happens: with tags that clash a host replaces a destination and gets the transaction signed; the same host
gets nothing signed from a device whose tags do not clash. -/
example : (∃ (log : List (Event Int)) (d : Device Int Int), Reach weakEnv log d ∧ (signs (session weakEnv log)).length = 2 ∧
      (initOf (session weakEnv log)).map (·.1.outputs) = some [Demo.dst 1, Demo.dst2 3] ∧
      (outputs (session weakEnv log)).map (·.dst) = [Demo.dst2 1, Demo.dst2 3] ∧ ∀ o ∈ outputs (session weakEnv log), o.hmac ∈ issued (session weakEnv log)) ∧
    ∃ (log : List (Event Int)) (d : Device Int Int), log = (Demo.drive pbEnv swapHost [] {}).1 ∧ Reach pbEnv log d ∧ signs (session pbEnv log) = [] := by
  refine ⟨⟨_, _, Demo.drive_reach swapHost .start, ?_, ?_, ?_, ?_⟩, _, _, rfl, Demo.drive_reach swapHost .start, ?_⟩
  · decide +kernel
  · decide +kernel
  · decide +kernel
  · decide +kernel
  · exact List.length_eq_zero_iff.1 (by decide +kernel)

/-- C115 covers the idealised statement: with primitives that never collide, a host that presents only issued tags breaks nothing. -/
theorem C115_ideal {env : Env S P} (hB : Binding env) {secret t : Bytes} {a : Item} {s : List (Event S)} (hs : secretOf env s = some secret)
    (ht : t ∈ issued s) : ¬ Broken env secret s a t := by
  intro h
  have hl := C115_secret hB.keyLen hs
  rcases C115_broken hl h with h1 | ⟨b, hb, hc⟩
  · exact h1 ht
  · cases hc with
    | keys x y hx hy hne he =>
      obtain ⟨r1, t1⟩ := keyBuf_some hl hx
      obtain ⟨r2, t2⟩ := keyBuf_some hl hy
      rw [r1, r2] at he hne
      exact hne (by rw [hB.keyInj _ _ _ hl t1 t2 he])
    | contents hne he => exact hne (hB.hashInj _ _ he)
    | tags x y hx hy hne he => exact hne (hB.macInj _ _ _ _ he)

end Verif.Signer
