import Verif.Lemmas.Command
import Verif.Props.Amount

namespace Verif.Cmd
open Verif

theorem forall₂_left {α β : Type} {R : α → β → Prop} {l : List α} {m : List β} (h : List.Forall₂ R l m) {x : α} (hx : x ∈ l) : ∃ y, R x y := by
  induction h with
  | nil => cases hx
  | cons h _ ih =>
    rcases List.mem_cons.1 hx with rfl | hx
    · exact ⟨_, h⟩
    · exact ih hx

theorem transfer_words {o : Options} (ho : o.Ok) {dests : List (Text × Text)} {as : List ℕ}
    (hd : List.Forall₂ (fun d a => AddressLike d.1 ∧ Amount.Denotes d.2 a) dests as) (h0 : dests ≠ []) {pid : Option Bytes} (hp : PidOk pid) :
    words (transferLine o dests pid) = o.words ++ dests.flatMap (fun d => [d.1, d.2]) ++ (pid.map hexText).toList := by
  apply words_plain
  · cases dests with
    | nil => exact absurd rfl h0
    | cons d r => simp
  · intro t ht
    rcases List.mem_append.1 ht with ht | ht
    · rcases List.mem_append.1 ht with ht | ht
      · exact options_plain ho t ht
      · obtain ⟨d, hm, ht⟩ := List.mem_flatMap.1 ht
        obtain ⟨a, h1, h2⟩ := forall₂_left hd hm
        simp only [List.mem_cons, List.not_mem_nil, or_false] at ht
        rcases ht with rfl | rfl
        · exact h1.plain
        · exact denotes_plain h2
    · exact hexText_plain hp t ht

theorem floats_of {dests : List (Text × Text)} {as : List ℕ} (hd : List.Forall₂ (fun d a => AddressLike d.1 ∧ Amount.Denotes d.2 a) dests as) :
    List.Forall₂ (fun (d : Text × Text) v => Amount.float d.2 = some v) dests (as.map fun (a : ℕ) => Amount.round ((a : ℚ) / 10 ^ 12)) := by
  induction hd with
  | nil => exact .nil
  | cons h _ ih => exact .cons (Amount.float_denotes h.2) ih

theorem transfer_read {o : Options} (ho : o.Ok) {dests : List (Text × Text)} {as : List ℕ}
    (hd : List.Forall₂ (fun d a => AddressLike d.1 ∧ Amount.Denotes d.2 a) dests as) (h0 : dests ≠ []) {pid : Option Bytes} (hp : PidOk pid) :
    parseTransfer (words (transferLine o dests pid)) =
      some { indices := o.indices.map fun t => (Amount.value t : Int), priority := o.priority, mixin := o.ring.map fun t => (Amount.value t : Int),
             dests := (dests.map (·.1)).zip (as.map fun (a : ℕ) => Amount.round ((a : ℚ) / 10 ^ 12)), paymentId := pid.map hexText } := by
  rw [transfer_words ho hd h0 hp]
  have hf := floats_of hd
  have hdests := cutDests_pairs hf (pid.map hexText).toList (by cases pid <;> rfl)
  cases hd with
  | nil => exact absurd rfl h0
  | @cons d a r as h t =>
    obtain ⟨w1, w2, e1, e2, e3⟩ := cut_options ho h.1.stop (d.2 :: (r.flatMap (fun d => [d.1, d.2]) ++ (pid.map hexText).toList))
    have hl : ¬ (o.words ++ (d :: r).flatMap (fun d => [d.1, d.2]) ++ (pid.map hexText).toList).length < 2 := by simp; omega
    have he : o.words ++ (d :: r).flatMap (fun d => [d.1, d.2]) ++ (pid.map hexText).toList =
        o.words ++ d.1 :: (d.2 :: (r.flatMap (fun d => [d.1, d.2]) ++ (pid.map hexText).toList)) := by simp
    rw [parseTransfer, if_neg hl, he, e1]
    simp only [Option.bind_eq_bind, Option.pure_def, Option.bind_some, e2, e3]
    have hd2 : cutDests (d.1 :: (d.2 :: (r.flatMap (fun d => [d.1, d.2]) ++ (pid.map hexText).toList))) = _ := hdests
    rw [hd2]
    simp [cutPaymentId_ok hp]

theorem transferDests_ok {H : Bytes → Bytes} {pid : Option Bytes} (hp : PidOk pid) :
    ∀ {dests : List (Text × Text)} {as : List ℕ} {ds : List (Addr.Info × Int)}, List.Forall₂ (fun d a => AddressLike d.1 ∧ Amount.Denotes d.2 a) dests as →
      List.Forall₂ (fun d q => Addr.decodeAddr H (ascii d.1) = some q.1 ∧ Amount.sent d.2 = some q.2) dests ds → (pid ≠ none → ∀ q ∈ ds, q.1.isIntegrated = false) →
      transferDests H (pid.map hexText) ((dests.map (·.1)).zip (as.map fun (a : ℕ) => Amount.round ((a : ℚ) / 10 ^ 12))) =
        some (ds, if dests = [] then none else pid)
  | _, _, _, .nil, .nil, _ => rfl
  | _, _, _, .cons (a := d) (b := a) (l₁ := r) (l₂ := as) h t, .cons (b := q) (l₂ := ds) g u, hi => by
    have ih := transferDests_ok (H := H) hp t u fun hn q hq => hi hn q (List.mem_cons_of_mem _ hq)
    have ha : d.1.all (·.toNat < 128) = true := by
      rw [List.all_eq_true]
      intro c hc
      have := h.1.2.1 c hc
      unfold Alnum Amount.Digit at this
      exact decide_eq_true (by omega)
    have hx : Amount.amountToUint64 (Amount.round ((a : ℚ) / 10 ^ 12)) = some q.2 := by
      have := g.2
      rw [Amount.sent, Amount.float_denotes h.2] at this
      exact this
    have hh : handleAddress H d.1 (pid.map hexText) = some (q.1, pid) := by
      have hb : Addr.decodeAddr H (d.1.map fun c => UInt8.ofNat c.toNat) = some q.1 := g.1
      cases pid with
      | none => simp [handleAddress, ha, hb]
      | some p =>
        have hlen := hexText_length p
        have hpp := hp p rfl
        have hint := hi (by simp) q List.mem_cons_self
        have hu := unhex_hexText p
        rw [Option.map_some]
        cases hc : hexText p with
        | nil => rw [hc] at hlen; simp only [List.length_nil] at hlen; omega
        | cons c cs =>
          rw [hc] at hlen hu
          have hl : ((c :: cs).length ≠ 16 && (c :: cs).length ≠ 64) = false := by
            rcases hpp with e | e <;> rw [hlen, e] <;> rfl
          simp only [handleAddress, Option.getD_some, hl, Bool.and_false, Bool.false_eq_true, if_false, ha, Bool.not_true, hb, Option.bind_some, hint, hu,
            Option.map_some]
    simp only [List.map_cons, List.zip_cons_cons, transferDests, hh, Option.bind_some, hx, ih, Option.map_some, reduceCtorEq, if_false]
    cases pid with
    | none => simp
    | some p => by_cases hr : r = [] <;> simp [hr]

theorem cutIndex_sound {ws r : List Text} {l : List Int} (h : cutIndex ws = some (l, r)) :
    (ws = r ∧ l = []) ∨ ∃ x, ws = (indexTag ++ x) :: r ∧ (splitComma x).mapM (fun t => Hd.pyInt (Seed.strip t)) = some l := by
  cases ws with
  | nil => cases h
  | cons w ws =>
    rw [cutIndex] at h
    split at h
    · rename_i hp
      obtain ⟨x, rfl⟩ := List.isPrefixOf_iff_prefix.1 hp
      obtain ⟨l', hl, he⟩ := Option.map_eq_some_iff.1 h
      cases he
      exact Or.inr ⟨x, rfl, hl⟩
    · cases h
      exact Or.inl ⟨rfl, rfl⟩

theorem cutPriority_sound {ws r : List Text} {p : Option Nat} (h : cutPriority ws = some (p, r)) :
    (ws = r ∧ p = none) ∨ ∃ n < 5, ws = priorityName n :: r ∧ p = some n := by
  cases ws with
  | nil => cases h
  | cons w ws =>
    rw [cutPriority] at h
    split at h
    · rename_i hp
      cases h
      have := List.contains_iff_mem.1 hp
      simp only [priorities, List.mem_cons, List.not_mem_nil, or_false] at this
      rcases this with rfl | rfl | rfl | rfl | rfl
      · exact Or.inr ⟨0, by decide, rfl, rfl⟩
      · exact Or.inr ⟨1, by decide, rfl, rfl⟩
      · exact Or.inr ⟨2, by decide, rfl, rfl⟩
      · exact Or.inr ⟨3, by decide, rfl, rfl⟩
      · exact Or.inr ⟨4, by decide, rfl, rfl⟩
    · cases h
      exact Or.inl ⟨rfl, rfl⟩

theorem cutMixin_sound {ws r : List Text} {n : Option Int} (h : cutMixin ws = (n, r)) :
    (ws = r ∧ n = none) ∨ ∃ t k, ws = t :: r ∧ Hd.pyInt t = some k ∧ n = some k := by
  cases ws with
  | nil => cases h; exact Or.inl ⟨rfl, rfl⟩
  | cons w ws =>
    rw [cutMixin] at h
    split at h
    · rename_i k hk
      cases h
      exact Or.inr ⟨w, k, rfl, hk, rfl⟩
    · cases h
      exact Or.inl ⟨rfl, rfl⟩

theorem cutDests_sound : ∀ (ws : List Text), ∃ texts : List (Text × Text), ws = texts.flatMap (fun d => [d.1, d.2]) ++ (cutDests ws).2 ∧
    List.Forall₂ (fun (d : Text × Text) (v : Text × Amount.Double) => v.1 = d.1 ∧ Amount.float d.2 = some v.2) texts (cutDests ws).1
  | [] => ⟨[], rfl, .nil⟩
  | [_] => ⟨[], rfl, .nil⟩
  | a :: x :: ws => by
    rw [cutDests]
    cases hx : Amount.float x with
    | none => exact ⟨[], rfl, .nil⟩
    | some v =>
      obtain ⟨t, h1, h2⟩ := cutDests_sound ws
      refine ⟨(a, x) :: t, ?_, .cons ⟨rfl, hx⟩ h2⟩
      conv_lhs => rw [h1]
      simp

theorem transferDests_sound {H : Bytes → Bytes} {pid : Option Text} : ∀ {texts : List (Text × Text)} {vs : List (Text × Amount.Double)}
    {ds : List (Addr.Info × Int)} {pb : Option Bytes}, List.Forall₂ (fun (d : Text × Text) (v : Text × Amount.Double) => v.1 = d.1 ∧ Amount.float d.2 = some v.2) texts vs →
      transferDests H pid vs = some (ds, pb) →
      List.Forall₂ (fun d q => Addr.decodeAddr H (ascii d.1) = some q.1 ∧ Amount.sent d.2 = some q.2) texts ds ∧
        (pid = none → pb = none) ∧ (∀ t, pid = some t → t ≠ [] → texts ≠ [] → ∃ b, unhex t = some b ∧ pb = some b ∧ ∀ q ∈ ds, q.1.isIntegrated = false)
  | _, _, ds, pb, .nil, h => by
    cases h
    exact ⟨.nil, fun _ => rfl, fun _ _ _ hn => absurd rfl hn⟩
  | _, _, ds, pb, .cons (a := d) (b := v) (l₁ := r) g u, h => by
    obtain ⟨va, vx⟩ := v
    obtain ⟨rfl, gx⟩ := g
    rw [transferDests] at h
    obtain ⟨i, hi, h⟩ := Option.bind_eq_some_iff.1 h
    obtain ⟨n, hn, h⟩ := Option.bind_eq_some_iff.1 h
    obtain ⟨t, ht, h⟩ := Option.map_eq_some_iff.1 h
    cases h
    obtain ⟨h1, h2, h3⟩ := transferDests_sound u (show transferDests H pid _ = some (t.1, t.2) from ht)
    rw [handleAddress] at hi
    split at hi
    · cases hi
    · split at hi
      · cases hi
      · obtain ⟨info, hdec, hi⟩ := Option.bind_eq_some_iff.1 hi
        have hs : Amount.sent d.2 = some n := by rw [Amount.sent, gx]; exact hn
        split at hi
        · rename_i c cs _ _
          split at hi
          · cases hi
          · rename_i hint
            obtain ⟨b, hb, hi⟩ := Option.map_eq_some_iff.1 hi
            cases hi
            have hint' : info.isIntegrated = false := by simpa using hint
            refine ⟨.cons ⟨hdec, hs⟩ h1, fun e => by simp at e, ?_⟩
            intro t' ht' hne _
            cases ht'
            refine ⟨b, hb, ?_, ?_⟩
            · by_cases hr : r = []
              · subst hr
                cases u
                cases ht
                rfl
              · obtain ⟨b', hb', hp', _⟩ := h3 _ rfl hne hr
                rw [hb] at hb'
                cases hb'
                rw [hp']
                rfl
            · intro q hq
              rcases List.mem_cons.1 hq with rfl | hq
              · exact hint'
              · by_cases hr : r = []
                · subst hr
                  cases u
                  cases ht
                  cases hq
                · obtain ⟨b', _, _, hall⟩ := h3 _ rfl hne hr
                  exact hall q hq
        · rename_i hno
          cases hi
          refine ⟨.cons ⟨hdec, hs⟩ h1, ?_, ?_⟩
          · intro e
            rw [h2 e]
            rfl
          · intro t' ht' hne _
            cases t' with
            | nil => exact absurd rfl hne
            | cons c cs => exact absurd ht' (hno c cs)

theorem request_prepare {w : World} {n : ℕ} {m m' : Method} {p p' : Params} {aux : Option (List (Addr.Info × Int))}
    (h : Effect.request m p ∈ prepare w n m' p' aux) : m = m' ∧ p = p' := by
  rw [prepare] at h
  rcases List.mem_cons.1 h with h | h
  · cases h
    exact ⟨rfl, rfl⟩
  · exfalso
    split at h
    · cases h
    · cases h
    · rcases List.mem_cons.1 h with h | h
      · cases h
      · split at h
        · split at h
          · rw [signUnsigned] at h
            rcases List.mem_cons.1 h with h | h
            · cases h
            · split at h
              · rcases List.mem_cons.1 h with h | h
                · cases h
                · split at h
                  · rcases List.mem_cons.1 h with h | h
                    · cases h
                    · cases h
                  · cases h
              · cases h
              · cases h
          · cases h
        · cases h

theorem submit_signUnsigned {w : World} {n : ℕ} {u b : Bytes} {aux : Option (List (Addr.Info × Int))} (h : Effect.submit b ∈ signUnsigned w n u aux) :
    signUnsigned w n u aux = [.sign u aux, .asked (some true), .submit b] ∧ w.answer n = some true ∧ w.signer u aux = .data b := by
  have h1 := h
  rw [signUnsigned] at h1 ⊢
  rcases List.mem_cons.1 h1 with h1 | h1
  · cases h1
  · split at h1
    · rename_i d hd
      rcases List.mem_cons.1 h1 with h1 | h1
      · cases h1
      · split at h1
        · rename_i ha
          rcases List.mem_cons.1 h1 with h1 | h1
          · cases h1
            simp only [hd, ha, if_true, and_self]
          · cases h1
        · cases h1
    · cases h1
    · cases h1

theorem submit_prepare {w : World} {n : ℕ} {m : Method} {p : Params} {b : Bytes} {aux : Option (List (Addr.Info × Int))} (h : Effect.submit b ∈ prepare w n m p aux) :
    ∃ t u, prepare w n m p aux = [.request m p, .asked (some true), .sign u aux, .asked (some true), .submit b] ∧
      w.reply m p = .result true (some t) ∧ unhex t = some u ∧ w.signer u aux = .data b ∧ w.answer n = some true ∧ w.answer (n + 1) = some true := by
  have h1 := h
  rw [prepare] at h1
  rcases List.mem_cons.1 h1 with h1 | h1
  · cases h1
  · split at h1
    · cases h1
    · cases h1
    · rename_i t hr
      rcases List.mem_cons.1 h1 with h1 | h1
      · cases h1
      · split at h1
        · rename_i ha
          split at h1
          · rename_i u hu
            have h2 := submit_signUnsigned h1
            obtain ⟨k1, k2, k3⟩ := h2
            obtain ⟨x, rfl, hux⟩ := Option.bind_eq_some_iff.1 hu
            refine ⟨x, u, ?_, hr, hux, k3, ha, k2⟩
            rw [prepare, hr]
            simp only [ha, if_true, Option.bind_some, hux, k1]
          · cases h1
        · cases h1

theorem sweep_words {o : Options} (ho : o.Ok) {address : Text} (ha : AddressLike address) {pid : Option Bytes} (hp : PidOk pid) :
    words (sweepLine o address pid) = o.words ++ address :: (pid.map hexText).toList := by
  apply words_plain (by simp)
  intro t ht
  rcases List.mem_append.1 ht with ht | ht
  · exact options_plain ho t ht
  · rcases List.mem_cons.1 ht with rfl | ht
    · exact ha.plain
    · exact hexText_plain hp t ht

theorem below_words {amount : Text} {a : ℕ} (hx : Amount.Denotes amount a) {o : Options} (ho : o.Ok) {address : Text} (ha : AddressLike address)
    {pid : Option Bytes} (hp : PidOk pid) : words (belowLine amount o address pid) = amount :: (o.words ++ address :: (pid.map hexText).toList) := by
  apply words_plain (by simp)
  intro t ht
  rcases List.mem_cons.1 ht with rfl | ht
  · exact denotes_plain hx
  · rcases List.mem_append.1 ht with ht | ht
    · exact options_plain ho t ht
    · rcases List.mem_cons.1 ht with rfl | ht
      · exact ha.plain
      · exact hexText_plain hp t ht

theorem line_ne {ws : List Text} (h : ∃ w ∈ ws, w ≠ []) : sepBy ' ' ws ≠ [] := by
  cases ws with
  | nil => obtain ⟨_, hw, _⟩ := h; cases hw
  | cons w ws =>
    cases ws with
    | nil =>
      obtain ⟨x, hx, hn⟩ := h
      simp only [List.mem_singleton] at hx
      subst hx
      exact hn
    | cons v vs => simp [sepBy]

theorem drop_takeWhile {α : Type} (p : α → Bool) (l : List α) : l.drop (l.takeWhile p).length = l.dropWhile p := by
  induction l with
  | nil => rfl
  | cons a l ih =>
    by_cases h : p a = true
    · simp [List.takeWhile_cons, List.dropWhile_cons, h, ih]
    · simp [List.takeWhile_cons, List.dropWhile_cons, h]

theorem dropWhile_head {α : Type} (p : α → Bool) : ∀ {l x : List α} {z : α}, l.dropWhile p = z :: x → p z = false
  | [], _, _, h => by cases h
  | a :: l, x, z, h => by
    rw [List.dropWhile_cons] at h
    split at h
    · exact dropWhile_head p h
    · rename_i ha
      cases h
      simpa using ha

theorem takeWhile_all {α : Type} {p : α → Bool} {l : List α} (h : ∀ c ∈ l, p c = true) : l.takeWhile p = l := by
  induction l with
  | nil => rfl
  | cons a l ih => rw [List.takeWhile_cons, if_pos (h a List.mem_cons_self), ih fun c hc => h c (List.mem_cons_of_mem _ hc)]

theorem digits_none {t : Text} (h : ∃ c ∈ t, Alnum c ∧ ¬ Amount.Digit c) : Hd.digitsVal t false 0 = none := by
  obtain ⟨c, hc, h1, h2⟩ := h
  exact digitsVal_none t false 0 ⟨c, hc, (alnum_sign h1).2.2.1, h2⟩

/-- A word of letters and digits with a letter other than `e` is no number (`inf`, `infinity` and `nan` are shorter). -/
theorem float_hex {t : Text} (hl : 9 ≤ t.length) (ha : ∀ c ∈ t, Alnum c) (hx : ∃ c ∈ t, ¬ Amount.Digit c ∧ c ≠ 'e' ∧ c ≠ 'E') : Amount.float t = none := by
  have hs : ((t.dropWhile Hd.isSpace).reverse.dropWhile Hd.isSpace).reverse = t := Seed.strip_solid (solid_alnum ha)
  have hb : ∀ neg, Amount.body t neg = none := by
    intro neg
    have hm : (t.map Char.toLower).length = t.length := List.length_map _
    rw [Amount.body, if_neg, if_neg, Option.map_eq_none_iff]
    · have hdrop := drop_takeWhile (fun c => decide (c ≠ 'e' ∧ c ≠ 'E')) t
      have hsplit := (List.takeWhile_append_dropWhile (p := fun c => decide (c ≠ 'e' ∧ c ≠ 'E')) (l := t)).symm
      have hne : ∀ c ∈ t.takeWhile (fun c => decide (c ≠ 'e' ∧ c ≠ 'E')), Alnum c := fun c hc => ha c ((List.takeWhile_prefix _).subset hc)
      have hmant : ∀ s : Text, (∀ c ∈ s, Alnum c) → Amount.mantissa s = (Hd.digitsVal s false 0).map fun a => (a, 0) := by
        intro s hs
        have : s.takeWhile (· ≠ '.') = s := by
          exact takeWhile_all fun c hc => decide_eq_true (alnum_sign (hs c hc)).2.2.2.2.2.1
        rw [Amount.mantissa, this]
        simp
      obtain ⟨m, hme⟩ : ∃ m, m = t.takeWhile (fun c => decide (c ≠ 'e' ∧ c ≠ 'E')) := ⟨_, rfl⟩
      rw [Amount.unsigned, ← hme]
      rw [← hme] at hsplit hne hdrop
      rw [← hdrop] at hsplit
      rw [hmant m hne]
      obtain ⟨c, hc, h1, h2⟩ := hx
      rw [hsplit] at hc
      rcases List.mem_append.1 hc with hc | hc
      · rw [digits_none ⟨c, hc, hne c hc, h1⟩]
        rfl
      · cases hd : Hd.digitsVal m false 0 with
        | none => rfl
        | some v =>
          cases hdr : t.drop m.length with
          | nil => rw [hdr] at hc; cases hc
          | cons z x =>
            have hz : z = 'e' ∨ z = 'E' := by
              by_contra hcon
              rw [not_or] at hcon
              have h5 := dropWhile_head _ (hdrop.symm.trans hdr)
              exact absurd h5 (by simp [hcon.1, hcon.2])
            have hcx : c ∈ x := by
              rw [hdr] at hc
              rcases List.mem_cons.1 hc with rfl | hc
              · rcases hz with rfl | rfl
                · exact absurd rfl h2.1
                · exact absurd rfl h2.2
              · exact hc
            have hxa : ∀ c ∈ x, Alnum c := fun c hc => ha c (List.mem_of_mem_drop (by rw [hdr]; exact List.mem_cons_of_mem _ hc))
            have hev : Amount.expVal x = none := by
              rw [Amount.expVal.eq_def]
              split
              · exact absurd rfl (alnum_sign (hxa '-' List.mem_cons_self)).1
              · exact absurd rfl (alnum_sign (hxa '+' List.mem_cons_self)).2.1
              · rw [digits_none ⟨c, hcx, hxa c hcx, h1⟩]
                rfl
            simp only [Option.map_some, Option.bind_some, hev, Option.map_none]
    · intro e
      rw [e] at hm
      exact absurd hm (by simp; omega)
    · rintro (e | e) <;> rw [e] at hm
      · exact absurd hm (by simp; omega)
      · exact absurd hm (by simp; omega)
  rw [Amount.float, hs]
  split
  · exact absurd rfl (alnum_sign (ha '-' List.mem_cons_self)).1
  · exact absurd rfl (alnum_sign (ha '+' List.mem_cons_self)).2.1
  · exact hb false

end Verif.Cmd
