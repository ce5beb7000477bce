import Verif.Spec.MsgConv
import Mathlib.Data.List.Forall2

/-! Lemmas about the conversion of messages. -/

namespace Verif.MsgConv
open Verif

theorem relabelList_map (f : Lib → Lib) (l : List PyVal) : relabelList f l = l.map (relabel f) := by
  induction l with
  | nil => rfl
  | cons v l ih => rw [relabelList, ih, List.map_cons]

theorem relabelAttrs_map (f : Lib → Lib) (a : List (String × PyVal)) : relabelAttrs f a = a.map fun x => (x.1, relabel f x.2) := by
  induction a with
  | nil => rfl
  | cons x a ih => obtain ⟨n, v⟩ := x; rw [relabelAttrs, ih, List.map_cons]

mutual
theorem relabel_relabel (f g : Lib → Lib) : ∀ v, relabel f (relabel g v) = relabel (fun x => f (g x)) v
  | .bytearray b => by simp only [relabel]
  | .list l => by simp only [relabel, relabelList_relabelList f g l]
  | .msg lib c a => by simp only [relabel, relabelAttrs_relabelAttrs f g a]
  | .none => by simp only [relabel]
  | .int n => by simp only [relabel]
  | .str s => by simp only [relabel]
  | .bytes b => by simp only [relabel]
theorem relabelList_relabelList (f g : Lib → Lib) : ∀ l, relabelList f (relabelList g l) = relabelList (fun x => f (g x)) l
  | [] => rfl
  | v :: l => by simp only [relabelList, relabel_relabel f g v, relabelList_relabelList f g l]
theorem relabelAttrs_relabelAttrs (f g : Lib → Lib) : ∀ a, relabelAttrs f (relabelAttrs g a) = relabelAttrs (fun x => f (g x)) a
  | [] => rfl
  | (n, v) :: a => by simp only [relabelAttrs, relabel_relabel f g v, relabelAttrs_relabelAttrs f g a]
end

theorem getAttr_at {name : String} {v : PyVal} : ∀ (A S : List (String × PyVal)), name ∉ A.map Prod.fst → getAttr name (A ++ (name, v) :: S) = some v
  | [], S, _ => by rw [List.nil_append, getAttr, if_pos rfl]
  | (n, w) :: A, S, h => by
    rw [List.cons_append, getAttr, if_neg (show ¬ n = name from fun e => h (by simp [e])), getAttr_at A S fun h' => h (by simp [h'])]

theorem setAttr_at {name : String} {v w : PyVal} : ∀ (A S : List (String × PyVal)), name ∉ A.map Prod.fst →
    setAttr name v (A ++ (name, w) :: S) = A ++ (name, v) :: S
  | [], S, _ => by rw [List.nil_append, setAttr, if_pos rfl, List.nil_append]
  | (n, u) :: A, S, h => by
    rw [List.cons_append, setAttr, if_neg (show ¬ n = name from fun e => h (by simp [e])), setAttr_at A S fun h' => h (by simp [h']), List.cons_append]

/-- A loop over the fields that changes each attribute in place. -/
theorem fix_loop (g : Kind → PyVal → Option PyVal) (h : PyVal → PyVal) : ∀ (fs : List (String × Kind)) (S P : List (String × PyVal)),
    fs.map Prod.fst = S.map Prod.fst → ((P ++ S).map Prod.fst).Nodup → (∀ x ∈ fs.zip S, g x.1.2 x.2.2 = some (h x.2.2)) →
    fs.foldlM (fun cur (f : String × Kind) =>
        match getAttr f.1 cur with
        | .none => some cur
        | some v => (g f.2 v).bind fun v => some (setAttr f.1 v cur)) (P ++ S) = some (P ++ S.map fun x => (x.1, h x.2))
  | [], S, P, e, _, _ => by
    have : S = [] := by cases S with | nil => rfl | cons => simp at e
    subst this; rfl
  | f :: fs, [], P, e, _, _ => by simp at e
  | f :: fs, (n, v) :: S, P, e, hn, hg => by
    have e1 : f.1 = n := by simpa using (List.cons.inj e).1
    have e2 : fs.map Prod.fst = S.map Prod.fst := (List.cons.inj e).2
    have hnot : n ∉ P.map Prod.fst := by
      rw [List.map_append, List.nodup_append] at hn
      intro hm
      exact hn.2.2 n hm n (by simp) rfl
    have hgv := hg (f, (n, v)) (by simp)
    rw [List.foldlM_cons]
    simp only [e1, getAttr_at P S hnot, hgv, Option.bind_some, setAttr_at P S hnot]
    have ih := fix_loop g h fs S (P ++ [(n, h v)]) e2 (by simpa using hn) (fun x hx => hg x (by simp [hx]))
    simp only [List.append_assoc, List.singleton_append] at ih
    exact ih.trans (by simp)

/-- A loop over the fields that fills a new object. -/
theorem fill_loop (g : PyVal → Option PyVal) (h : PyVal → PyVal) : ∀ (fs : List (String × Kind)) (A S P D : List (String × PyVal)),
    fs.map Prod.fst = S.map Prod.fst → D.map Prod.fst = S.map Prod.fst → P.map Prod.fst = A.map Prod.fst →
    ((A ++ S).map Prod.fst).Nodup → (∀ x ∈ S, g x.2 = some (h x.2)) →
    fs.foldlM (fun cur (f : String × Kind) =>
        match getAttr f.1 (A ++ S) with
        | .none => some cur
        | some v => (g v).map fun v => setAttr f.1 v cur) (P ++ D) = some (P ++ S.map fun x => (x.1, h x.2))
  | [], A, S, P, D, e, e', _, _, _ => by
    have : S = [] := by cases S with | nil => rfl | cons => simp at e
    subst this
    have : D = [] := by cases D with | nil => rfl | cons => simp at e'
    subst this; rfl
  | f :: fs, A, [], P, D, e, _, _, _, _ => by simp at e
  | f :: fs, A, (n, v) :: S, P, [], _, e', _, _, _ => by simp at e'
  | f :: fs, A, (n, v) :: S, P, (m, w) :: D, e, e', ep, hn, hg => by
    have e1 : f.1 = n := by simpa using (List.cons.inj e).1
    have e2 : fs.map Prod.fst = S.map Prod.fst := (List.cons.inj e).2
    have d1 : m = n := by simpa using (List.cons.inj e').1
    have d2 : D.map Prod.fst = S.map Prod.fst := (List.cons.inj e').2
    subst d1
    have hnot : m ∉ A.map Prod.fst := by
      rw [List.map_append, List.nodup_append] at hn
      intro hm
      exact hn.2.2 m hm m (by simp) rfl
    have hgv := hg (m, v) (by simp)
    rw [List.foldlM_cons]
    simp only [e1, getAttr_at A S hnot, hgv, Option.map_some, setAttr_at P D (ep ▸ hnot)]
    have ih := fill_loop g h fs (A ++ [(m, v)]) S (P ++ [(m, h v)]) D e2 d2 (by simp [ep]) (by simpa using hn) (fun x hx => hg x (by simp [hx]))
    simp only [List.append_assoc, List.singleton_append] at ih
    exact ih.trans (by simp)

theorem mapM_some {α β : Type} (g : α → Option β) (h : α → β) : ∀ (l : List α), (∀ x ∈ l, g x = some (h x)) → l.mapM g = some (l.map h)
  | [], _ => rfl
  | a :: l, hl => by
    rw [List.mapM_cons, hl a (by simp), mapM_some g h l fun x hx => hl x (by simp [hx])]
    rfl

theorem pyBytes_of {v : PyVal} (h : IsBytes v) : pyBytes v = some (relabel id v) := by
  cases v <;> first | exact h.elim | simp only [pyBytes, relabel]

theorem wf_leaf {sch : Schema} {lib : Lib} {n : Nat} {v : PyVal} (h : IsBytes v) : Wf sch lib n v := by
  cases v <;> first | exact h.elim | (cases n <;> trivial)

theorem isBytes_clean {v : PyVal} (h : IsBytes v) : IsBytes (relabel id v) := by
  cases v <;> first | exact h.elim | (simp only [relabel]; trivial)

theorem wf_clean (sch : Schema) (lib : Lib) : ∀ (n : Nat) (v : PyVal), Wf sch lib n v → Wf sch lib n (relabel id v) := by
  intro n
  induction n with
  | zero => intro v h; cases v <;> first | exact h.elim | (simp only [relabel]; trivial)
  | succ n ih =>
    intro v h
    cases v with
    | list l =>
      simp only [relabel, relabelList_map, Wf, List.mem_map]
      rintro x ⟨y, hy, rfl⟩
      exact ih _ (h y hy)
    | msg lib' c a =>
      obtain ⟨rfl, fs, h1, h2, h3, h4⟩ := h
      simp only [relabel, relabelAttrs_map, Wf]
      refine ⟨rfl, fs, h1, h2, ?_, ?_⟩
      · rw [h3, List.map_map]; rfl
      · intro x hx
        rw [List.zip_map_right, List.mem_map] at hx
        obtain ⟨y, hy, rfl⟩ := hx
        obtain ⟨t, w⟩ := h4 y hy
        refine ⟨?_, ih _ w⟩
        show Typed y.1.2 (relabel id y.2.2)
        revert t
        generalize y.1.2 = k
        generalize y.2.2 = v
        intro t
        cases k <;> cases v <;> simp only [relabel, relabelList_map, Typed, IsBytes, List.mem_map] at t ⊢
        all_goals try trivial
        rintro x ⟨z, hz, rfl⟩
        exact isBytes_clean (t z hz)
    | _ => simp only [relabel]; trivial

theorem bytesField_spec {sch : Schema} {lib : Lib} {n : Nat} {k : Kind} {v : PyVal} (t : Typed k v) (w : Wf sch lib n v) :
    ∃ v', bytesField k v = some v' ∧ Wf sch lib n v' ∧ relabel id v' = relabel id v := by
  have hid : ∀ v : PyVal, relabel id (relabel id v) = relabel id v := fun v => relabel_relabel id id v
  cases k with
  | bytes =>
    cases v with
    | none => exact ⟨.none, rfl, w, rfl⟩
    | bytes b => exact ⟨.bytes b, rfl, w, rfl⟩
    | bytearray b => exact ⟨.bytes b, rfl, by cases n <;> trivial, rfl⟩
    | _ => exact t.elim
  | bytesList =>
    cases v with
    | none => exact ⟨.none, rfl, w, rfl⟩
    | list l =>
      refine ⟨relabel id (.list l), ?_, wf_clean sch lib n _ w, hid _⟩
      simp only [bytesField, relabel, relabelList_map]
      rw [mapM_some pyBytes (relabel id) l fun x hx => pyBytes_of (t x hx)]
      rfl
    | _ => exact t.elim
  | repeated => exact ⟨v, by cases v <;> rfl, w, rfl⟩
  | other => exact ⟨v, by cases v <;> rfl, w, rfl⟩

theorem bytesFix_spec (sch : Schema) (lib : Lib) : ∀ (n : Nat) (v : PyVal), Wf sch lib n v → bytesFix sch lib n v = some (relabel id v) := by
  intro n
  induction n with
  | zero => intro v h; cases v <;> first | exact h.elim | (simp only [bytesFix, relabel])
  | succ n ih =>
    intro v h
    cases v with
    | list l =>
      simp only [bytesFix, relabel, relabelList_map]
      rw [mapM_some _ (relabel id) l fun x hx => ih x (h x hx)]
      rfl
    | msg lib' c a =>
      obtain ⟨rfl, fs, h1, h2, h3, h4⟩ := h
      simp only [bytesFix, relabel, relabelAttrs_map, if_true, h1, Option.getD_some]
      have := fix_loop (fun k v => (bytesField k v).bind (bytesFix sch lib' n)) (relabel id) fs a [] h3 (by rw [List.nil_append, ← h3]; exact h2) (by
        intro x hx
        obtain ⟨t, w⟩ := h4 x hx
        obtain ⟨v', g1, g2, g3⟩ := bytesField_spec t w
        rw [g1, Option.bind_some, ih v' g2, g3])
      simp only [List.nil_append] at this
      have e : (fun (cur : List (String × PyVal)) (f : String × Kind) => (match getAttr f.1 cur with
          | .none => some cur
          | some v => do
            let v ← bytesField f.2 v
            let v ← bytesFix sch lib' n v
            some (setAttr f.1 v cur))) = fun cur f => (match getAttr f.1 cur with
          | .none => some cur
          | some v => ((bytesField f.2 v).bind (bytesFix sch lib' n)).bind fun v => some (setAttr f.1 v cur)) := by
        funext cur f
        cases getAttr f.1 cur with
        | none => rfl
        | some v => cases hb : bytesField f.2 v with
          | none => simp [hb]
          | some u => simp [hb]
      refine (congrArg (fun F => Option.map (PyVal.msg lib' c) (List.foldlM F a fs)) e).trans ?_
      exact congrArg (Option.map (PyVal.msg lib' c)) this
    | _ => simp only [bytesFix, relabel]

theorem defaults_names (fs : List (String × Kind)) : (defaults fs).map Prod.fst = fs.map Prod.fst := by
  simp [defaults]

theorem transform_msg {sch : Schema} {src dst : Lib} {g : PyVal → Option PyVal} {h : PyVal → PyVal} {c : String} {a : List (String × PyVal)}
    {fs : List (String × Kind)} (h1 : ∀ L, sch L c = some fs) (h2 : (fs.map Prod.fst).Nodup) (h3 : fs.map Prod.fst = a.map Prod.fst)
    (hg : ∀ x ∈ a, g x.2 = some (h x.2)) : transform sch src dst g (.msg src c a) = some (.msg dst c (a.map fun x => (x.1, h x.2))) := by
  simp only [transform, if_true, h1, Option.getD_some]
  have := fill_loop g h fs [] a [] (defaults fs) h3 (by rw [defaults_names, h3]) rfl (by rw [List.nil_append, ← h3]; exact h2) hg
  simp only [List.nil_append] at this
  erw [this]
  rfl

theorem mem_zip_right {α β γ : Type} {f : α → γ} {g : β → γ} : ∀ {fs : List α} {a : List β}, fs.map f = a.map g → ∀ x ∈ a, ∃ y, (y, x) ∈ fs.zip a
  | [], [], _, x, hx => by simp at hx
  | [], b :: a, e, _, _ => by simp at e
  | f' :: fs, [], e, _, _ => by simp at e
  | f' :: fs, b :: a, e, x, hx => by
    rcases List.mem_cons.mp hx with rfl | hx
    · exact ⟨f', by simp⟩
    · obtain ⟨y, hy⟩ := mem_zip_right (List.cons.inj e).2 x hx
      exact ⟨y, by simp [hy]⟩

theorem toTrezor_spec (sch : Schema) : ∀ (n : Nat) (v : PyVal), Wf sch .ours n v → toTrezor sch n v = some (inLib .trezor v) := by
  intro n
  induction n with
  | zero =>
    intro v h
    cases v <;> first | exact h.elim | rfl
  | succ n ih =>
    intro v h
    have hf := bytesFix_spec sch .ours (n + 1) v h
    have hw := wf_clean sch .ours (n + 1) v h
    have hc : inLib .trezor v = inLib .trezor (relabel id v) := (relabel_relabel (fun _ => Lib.trezor) id v).symm
    have hi : relabel id (relabel id v) = relabel id v := relabel_relabel id id v
    rw [toTrezor, hf, hc]
    generalize relabel id v = w at hw hi
    show transform sch .ours .trezor (toTrezor sch n) w = _
    cases w with
    | list l =>
      simp only [transform, inLib, relabel, relabelList_map]
      rw [mapM_some _ (inLib .trezor) l fun x hx => ih x (hw x hx)]
      rfl
    | msg lib' c a =>
      obtain ⟨rfl, fs, h1, h2, h3, h4⟩ := hw
      rw [transform_msg (h := inLib .trezor) h1 h2 h3]
      · simp only [inLib, relabel, relabelAttrs_map]
      · intro x hx
        obtain ⟨y, hy⟩ := mem_zip_right h3 x hx
        exact ih _ (h4 _ hy).2
    | bytearray b => simp only [relabel] at hi; cases hi
    | _ => rfl

theorem wf_inLib (sch : Schema) (lib : Lib) : ∀ (n : Nat) (v : PyVal), Wf sch lib n v → relabel id v = inLib lib v := by
  intro n
  induction n with
  | zero => intro v h; cases v <;> first | exact h.elim | rfl
  | succ n ih =>
    intro v h
    cases v with
    | list l =>
      simp only [inLib, relabel, relabelList_map]
      congr 1
      exact List.map_congr_left fun x hx => ih x (h x hx)
    | msg lib' c a =>
      obtain ⟨rfl, fs, h1, h2, h3, h4⟩ := h
      simp only [inLib, relabel, relabelAttrs_map, id]
      congr 1
      refine List.map_congr_left fun x hx => ?_
      obtain ⟨y, hy⟩ := mem_zip_right h3 x hx
      exact Prod.ext rfl (ih _ (h4 _ hy).2)
    | _ => rfl

theorem map_eq_self {α : Type} {f : α → α} : ∀ {l : List α}, l.map f = l → ∀ x ∈ l, f x = x
  | [], _, x, hx => by simp at hx
  | a :: l, h, x, hx => by
    rcases List.mem_cons.mp hx with rfl | hx
    · exact (List.cons.inj h).1
    · exact map_eq_self (List.cons.inj h).2 x hx

/-- Values with classes of the device's library only, and no byte arrays, pass through unchanged. -/
theorem kept (sch : Schema) : ∀ (n : Nat) (v : PyVal), Wf sch .trezor n v → relabel id v = v →
    bytesFix sch .ours n v = some v ∧ toTrezor sch n v = some v := by
  intro n
  induction n with
  | zero =>
    intro v h hc
    cases v <;> first | exact h.elim | exact ⟨rfl, rfl⟩ | (simp only [relabel] at hc; cases hc)
  | succ n ih =>
    intro v h hc
    cases v with
    | list l =>
      simp only [relabel, relabelList_map, PyVal.list.injEq] at hc
      have hx := fun x hx => ih x (h x hx) (map_eq_self hc x hx)
      have hb : bytesFix sch .ours (n + 1) (.list l) = some (.list l) := by
        simp only [bytesFix]
        rw [mapM_some _ id l fun x h => (hx x h).1, List.map_id]
        rfl
      refine ⟨hb, ?_⟩
      rw [toTrezor, hb]
      show transform sch .ours .trezor (toTrezor sch n) (.list l) = _
      simp only [transform]
      rw [mapM_some _ id l fun x h => (hx x h).2, List.map_id]
      rfl
    | msg lib' c a =>
      obtain ⟨rfl, -⟩ := h
      exact ⟨rfl, rfl⟩
    | bytearray b => simp only [relabel] at hc; cases hc
    | _ => exact ⟨rfl, rfl⟩

theorem clean_clean (v : PyVal) : relabel id (relabel id v) = relabel id v := relabel_relabel id id v

theorem toOurs_spec (sch : Schema) (n : Nat) (c : String) (a : List (String × PyVal)) (h : Wf sch .trezor (n + 1) (.msg .trezor c a)) :
    toOurs sch (n + 1) (.msg .trezor c a) = some (.msg .ours c (relabelAttrs id a)) := by
  have hf := bytesFix_spec sch .trezor (n + 1) _ h
  have hw := wf_clean sch .trezor (n + 1) _ h
  rw [toOurs, hf]
  show transform sch .trezor .ours (toTrezor sch n) (relabel id (.msg .trezor c a)) = _
  simp only [relabel, id] at hw ⊢
  have hcl : ∀ x ∈ relabelAttrs id a, relabel id x.2 = x.2 := by
    intro x hx
    rw [relabelAttrs_map, List.mem_map] at hx
    obtain ⟨y, -, rfl⟩ := hx
    exact clean_clean _
  obtain ⟨-, fs, h1, h2, h3, h4⟩ := hw
  rw [transform_msg (h := id) h1 h2 h3]
  · simp only [id, List.map_id']
  · intro x hx
    obtain ⟨y, hy⟩ := mem_zip_right h3 x hx
    exact (kept sch n _ (h4 _ hy).2 (hcl x hx)).2

theorem bytesField_clean {k : Kind} {v : PyVal} (t : Typed k v) (hc : relabel id v = v) : bytesField k v = some v := by
  cases k with
  | bytes => cases v <;> first | exact t.elim | rfl | (simp only [relabel] at hc; cases hc)
  | bytesList =>
    cases v with
    | list l =>
      simp only [relabel, relabelList_map, PyVal.list.injEq] at hc
      simp only [bytesField]
      rw [mapM_some pyBytes (relabel id) l fun x hx => pyBytes_of (t x hx), hc]
      rfl
    | none => rfl
    | _ => exact t.elim
  | repeated => cases v <;> rfl
  | other => cases v <;> rfl

theorem round (sch : Schema) (n : Nat) (c : String) (a : List (String × PyVal)) (h : Wf sch .trezor (n + 1) (.msg .trezor c a)) :
    toTrezor sch (n + 1) (.msg .ours c (relabelAttrs id a)) = some (.msg .trezor c (relabelAttrs id a)) := by
  have hw := wf_clean sch .trezor (n + 1) _ h
  simp only [relabel, id] at hw
  have hcl : ∀ x ∈ relabelAttrs id a, relabel id x.2 = x.2 := by
    intro x hx
    rw [relabelAttrs_map, List.mem_map] at hx
    obtain ⟨y, -, rfl⟩ := hx
    exact clean_clean _
  generalize relabelAttrs id a = b at *
  obtain ⟨-, fs, h1, h2, h3, h4⟩ := hw
  have hb : bytesFix sch .ours (n + 1) (.msg .ours c b) = some (.msg .ours c b) := by
    simp only [bytesFix, if_true, h1, Option.getD_some]
    have := fix_loop (fun k v => (bytesField k v).bind (bytesFix sch .ours n)) id fs b [] h3 (by rw [List.nil_append, ← h3]; exact h2) (by
      intro x hx
      obtain ⟨t, w⟩ := h4 x hx
      have hx2 := hcl x.2 (List.of_mem_zip hx).2
      rw [bytesField_clean t hx2, Option.bind_some]
      exact (kept sch n _ w hx2).1)
    simp only [List.nil_append, id, List.map_id'] at this
    have e : (fun (cur : List (String × PyVal)) (f : String × Kind) => (match getAttr f.1 cur with
        | .none => some cur
        | some v => do
          let v ← bytesField f.2 v
          let v ← bytesFix sch .ours n v
          some (setAttr f.1 v cur))) = fun cur f => (match getAttr f.1 cur with
        | .none => some cur
        | some v => ((bytesField f.2 v).bind (bytesFix sch .ours n)).bind fun v => some (setAttr f.1 v cur)) := by
      funext cur f
      cases getAttr f.1 cur with
      | none => rfl
      | some v => cases hb : bytesField f.2 v with
        | none => simp [hb]
        | some u => simp [hb]
    refine (congrArg (fun F => Option.map (PyVal.msg .ours c) (List.foldlM F b fs)) e).trans ?_
    exact congrArg (Option.map (PyVal.msg .ours c)) this
  rw [toTrezor, hb]
  show transform sch .ours .trezor (toTrezor sch n) (.msg .ours c b) = _
  rw [transform_msg (h := id) h1 h2 h3]
  · simp only [id, List.map_id']
  · intro x hx
    obtain ⟨y, hy⟩ := mem_zip_right h3 x hx
    exact (kept sch n _ (h4 _ hy).2 (hcl x hx)).2

theorem leaf_relabel {v : PyVal} (h : Leaf v) (f g : Lib → Lib) : relabel f v = relabel g v := by
  cases v with
  | msg => exact h.elim
  | list l =>
    simp only [relabel, relabelList_map]
    congr 1
    refine List.map_congr_left fun x hx => ?_
    have := h x hx
    cases x <;> first | exact this.elim | rfl
  | _ => rfl

end Verif.MsgConv
