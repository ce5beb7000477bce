import Verif.Model.KeyV

/-!
The Bulletproof prover split between a device and a host that does most of the arithmetic on blinded vectors: xmr/bulletproof.py
`BulletProofBuilder.prove_batch_off`, `prove_batch_off_step` (the device) and xmr/bulletproof_cl.py `BulletproofClient.compute_bp` (the host).

A buffer is the list of its 32-byte elements; chunked buffers are joined by `dechunk_res` (bulletproof_cl.py 100-115). The device object is saved
after each message and loaded before the next one (bulletproof.py 1790-1875, bulletproof_cl.py 433-524); what is saved is the device state here.
Saving and restoring of the lazily computed vectors is part of the model. A zero challenge makes the device return `(0,)`, after which the host
raises at the next use of the answer: `none`, as any other exception. `H` is Keccak-256.
-/

namespace Verif.Off
open Verif Ed Key Sig Bp KeyV

/-- A buffer as a list of 32-byte elements. -/
abbrev Buf := List Bytes

/-- ec_py.py 277-280 `decodeint_into_noreduce`. -/
def kInt (k : Bytes) : Int := bitSum k 256

/-- 32 zero bytes. -/
def zeroKey : Bytes := List.replicate 32 0

/-- bulletproof.py 423-440 `KeyV(n, buffer)`: an empty buffer counts as none, a zero vector of `n` elements is made. -/
def keyV (n : Nat) (b : Buf) : Buf := if b = [] then List.replicate n zeroKey else b

/-- bulletproof.py 1700-1717, bulletproof_cl.py 143-146, 454-458: the parameters the host chooses. -/
structure Cfg where
  method : Nat
  thresh : Nat
  off2 : Nat
  batching : Nat
deriving DecidableEq, Repr

/-- bulletproof.py 2452-2453: the saved state of `sL`, `sR`, `r0` and `ypow`. -/
structure Lr where
  sL : Prng
  sR : Prng
  r0 : R0
  yp : Powers

/-- The fields of the device in the first phase. -/
structure P1 where
  cfg : Cfg
  MN : Nat
  logMN : Nat
  sv : List Int
  gamma : List Int
  V : List Bytes
  A : Bytes
  S : Bytes
  T1 : Bytes
  T2 : Bytes
  y : Int
  z : Int
  x : Int
  ts : Int
  lr : Option Lr
  done : Bool
  offpos : Nat
  bl : Nat → Int

/-- The fields of the device which do not change in the second phase. -/
structure Fix where
  cfg : Cfg
  MN : Nat
  logMN : Nat
  V : List Bytes
  A : Bytes
  S : Bytes
  T1 : Bytes
  T2 : Bytes
  taux : Int
  mu : Int
  t : Int
  y : Int
  xip : Int

/-- The other fields of the device in the second phase. `c`, `XA`, `XB` are `cL`, `LcA`, `LcB` in state 20 and `cR`, `RcA`, `RcB` in state 21:
the values for `L` are not used after that state. `X` is the vectors `Gprime`, `Hprime`, `aprime`, `bprime` kept by the device. -/
structure P2 where
  fix : Fix
  offstate : Nat
  offpos : Nat
  round : Nat
  nprime : Nat
  cache : Int
  L : List Bytes
  R : List Bytes
  w : Int
  c : Int
  XA : Bytes
  XB : Bytes
  bl0 : Nat → Int
  bl1 : Nat → Int
  draws : Nat
  powL : Powers
  powR : Powers
  G : Buf
  Hp : Buf
  a : Buf
  b : Buf

/-- The device. -/
inductive Dev where
  | one (d : P1)
  | two (d : P2)

/-- An answer. -/
inductive Resp where
  | bufs (b : List Buf)
  | proof (p : Proof)

/-! ## First phase -/

/-- What bulletproof.py 2369-2383 `prove_batch_off` and 2455-2527 `_prove_phase1` compute before they branch on `offload`; `buffers` is `None`. -/
structure Setup where
  V : List Bytes
  A : Bytes
  S : Bytes
  T1 : Bytes
  T2 : Bytes
  y : Int
  z : Int
  x : Int

def setup (H : Bytes → Bytes) (rnd : Rand) (sv gamma : List Int) : Option Setup :=
  if sv.length ≠ gamma.length ∨ sv.length = 0 then none
  else
    let idx := List.range (2 ^ logM sv.length * 64)
    let G := idx.map (gGen H)
    let Hp := idx.map (hGen H)
    do
      let V ← compV sv gamma
      let A ← vecCommit G Hp (idx.map (aLAt sv)) (idx.map (aRAt sv)) rnd.alpha
      let S ← vecCommit G Hp (idx.map rnd.sL) (idx.map rnd.sR) rnd.rho
      let y := mash H (hashVct H V) [A, S]
      if y = 0 then none else
      let z := hs H (encodeInt y)
      if z = 0 then none else
      let tt := crossLoop (fun i => scSub (aLAt sv i) z) (fun i => r0At (aRAt sv i) y z i) rnd.sL (fun i => scMul (rnd.sR i) (pw y i)) idx (0, 0)
      let T1 ← commit8 rnd.tau1 tt.1
      let T2 ← commit8 rnd.tau2 tt.2
      let x := mash H z [encodeInt z, T1, T2]
      if x = 0 then none else some ⟨V, A, S, T1, T2, y, z, x⟩

/-- bulletproof.py 2578-2583: the lazy vectors, new or restored. -/
def lrObjects (z : Int) : Option Lr → Lr
  | none => ⟨Prng.new, Prng.new, R0.new z, Powers.new⟩
  | some o => { o with r0 := o.r0.restored }

/-- bulletproof.py 2589-2590: `l_i`, `r_i` read from the lazy vectors. -/
def lrElem (rnd : Rand) (d : P1) (o : Lr) (i : Nat) : Option (Lr × Int × Int) :=
  match Prng.get d.MN false rnd.sL o.sL i, Prng.get d.MN false rnd.sR o.sR i, R0.get d.MN 64 (aRAt d.sv) d.y d.z o.r0 i,
      Powers.get d.MN d.y o.yp i with
  | (sL, some l1), (sR, some s), (r0, some r0i), (yp, some ypi) =>
    some (⟨sL, sR, r0, yp⟩, scMuladd d.x l1 (scSub (aLAt d.sv i) d.z), scMuladd d.x (scMul s ypi) r0i)
  | _, _, _, _ => none

/-- `int(i >= (n >> 1))`. -/
def half (n i : Nat) : Nat := if i ≥ n / 2 then 1 else 0

/-- bulletproof.py 2587-2595: `n` elements from position `i`. -/
def lrLoop (rnd : Rand) (d : P1) : Nat → Nat → Lr → Int → Option (Lr × Int × Buf × Buf)
  | 0, _, o, ts => some (o, ts, [], [])
  | n + 1, i, o, ts =>
    match lrElem rnd d o i with
    | none => none
    | some (o, li, ri) =>
      match lrLoop rnd d n (i + 1) o (scMuladd li ri ts) with
      | none => none
      | some (o, ts, l, r) =>
        some (o, ts, encodeInt (scMul li (d.bl (4 + half d.MN i))) :: l, encodeInt (scMul ri (d.bl (6 + half d.MN i))) :: r)

/-- bulletproof.py 2567-2614 `_phase1_lr`. -/
def phase1Lr (rnd : Rand) (d : P1) : Option (Dev × Resp) :=
  match lrLoop rnd d d.cfg.batching d.offpos (lrObjects d.z d.lr) d.ts with
  | none => none
  | some (o, ts, l, r) =>
    let pos := d.offpos + d.cfg.batching
    if pos ≥ d.MN then some (.one { d with ts := ts, lr := none, done := true, offpos := 0 }, .bufs [l, r])
    else some (.one { d with ts := ts, lr := some o, offpos := pos }, .bufs [l, r])

/-- bulletproof.py 2369-2383 with 2532-2540: the first message. `blind k` are the eight scalars of the `k`-th `_new_blinds` (2666-2676). -/
def start (H : Bytes → Bytes) (rnd : Rand) (blind : Nat → Nat → Int) (cfg : Cfg) (sv gamma : List Int) : Option (Dev × Resp) :=
  match setup H rnd sv gamma with
  | none => none
  | some s =>
    let lgM := logM sv.length
    phase1Lr rnd ⟨cfg, 2 ^ lgM * 64, lgM + 6, sv, gamma, s.V, s.A, s.S, s.T1, s.T2, s.y, s.z, s.x, 0, none, false, 0, blind 0⟩

/-- bulletproof.py 2616-2664 `_phase1_post`; `hash_cache` is `x` before and `x_ip` after. -/
def phase1Post (H : Bytes → Bytes) (rnd : Rand) (d : P1) : Option (Dev × Resp) :=
  let taux := tauxLoop d.z d.gamma (scMul d.z d.z) (scMuladd rnd.tau2 (scMul d.x d.x) (scMul rnd.tau1 d.x))
  let mu := scMuladd d.x rnd.rho rnd.alpha
  let xip := mash H d.x [encodeInt d.x, encodeInt taux, encodeInt mu, encodeInt d.ts]
  if xip = 0 then none
  else some (.two
    { fix := ⟨d.cfg, d.MN, d.logMN, d.V, d.A, d.S, d.T1, d.T2, taux, mu, d.ts, d.y, xip⟩
      offstate := if d.cfg.method = 0 then 20 else 2, offpos := 0, round := 0, nprime := d.MN / 2, cache := xip
      L := List.replicate d.logMN zeroKey, R := List.replicate d.logMN zeroKey, w := 0, c := 0, XA := zeroKey, XB := zeroKey
      bl0 := d.bl, bl1 := fun _ => 0, draws := 1, powL := Powers.new, powR := Powers.new, G := [], Hp := [], a := [], b := [] },
    .bufs [[encodeInt d.y]])

/-! ## Second phase -/

/-- bulletproof.py 3216-3228: element `i` of `HprimeL` or `HprimeR`, whose powers are in state `p`. -/
def hElem (H : Bytes → Bytes) (f : Fix) (p : Powers) (i : Nat) : Option (Powers × Bytes) :=
  match Powers.get f.MN (scInv f.y) p i with
  | (p, some v) => (scalarmultKey (hGen H i) v).map fun k => (p, k)
  | (_, none) => none

/-- Element `i` of `Gprec2`. -/
def gElem (H : Bytes → Bytes) (f : Fix) (i : Nat) : Option Bytes := if i < f.MN then some (gGen H i) else none

/-- bulletproof.py 758-781 `KeyVSliced(_, start, stop)`: the index in the wrapped vector. -/
def sliceIdx (start stop i : Nat) : Option Nat := if i < stop - start then some (start + i) else none

/-- bulletproof.py 2769-2773, 2872-2876: `8^{-1} (A + B + (c x_ip) H)`. -/
def closeDot (xip : Int) (A B : Bytes) (c : Int) : Option Bytes := do
  let P ← addKeys A B
  let P ← addKeys P (scalarmultH (scMul c xip))
  scalarmultKey P inv8

/-- bulletproof.py 2941-2991 `_compute_folding_consts`. -/
def constAt (d : P2) (i : Nat) : Int :=
  let offGh := decide (d.round = 0) && decide (d.fix.cfg.method ≥ 2) && decide (i < 8)
  let xi := if (i / 4 = 0 ∨ i / 4 = 3) ↔ i % 2 = 0 then scInv d.w else d.w
  let v := scMul (d.bl1 (i / 2)) xi
  if offGh then (if d.fix.cfg.method ≥ 3 ∧ i % 2 = 0 then scAdd v (d.bl0 (2 * (i / 4))) else v)
  else scMul v (scInv (d.bl0 (2 * (i / 4) + i % 2)))
def consts (d : P2) : List Buf := (List.range 16).map fun i => [encodeInt (constAt d i)]

/-- bulletproof.py 2731-2738: the loop over a chunk; `G`, `H` come from the buffers (rounds after the first) or from the generators, `H` through
the state of `yinvpowL`. -/
def clcrLoop (H : Bytes → Bytes) (d : P2) (gB hB : Buf) : Nat → Buf → Buf → Powers → Int → Bytes → Bytes → Option (Powers × Int × Bytes × Bytes)
  | _, [], _, p, c, XA, XB => some (p, c, XA, XB)
  | _, _ :: _, [], _, _, _, _ => none
  | i, a :: as, b :: bs, p, c, XA, XB =>
    let n := d.nprime
    let lo := sliceIdx d.offpos (min (d.offpos + d.fix.cfg.batching) n) i
    let hi := sliceIdx (n + d.offpos) (n + min (d.offpos + d.fix.cfg.batching) (2 * n)) i
    let g : Option Bytes := if d.round = 0 then (if d.offstate = 20 then hi else lo).bind (gElem H d.fix) else gB[i]?
    let h : Option (Powers × Bytes) := if d.round = 0 then (if d.offstate = 20 then lo else hi).bind (hElem H d.fix p) else hB[i]?.map fun k => (p, k)
    match g, h with
    | some g, some (p, h) =>
      match (scalarmultKey g (kInt a)).bind (addKeys XA ·), (scalarmultKey h (kInt b)).bind (addKeys XB ·) with
      | some XA, some XB => clcrLoop H d gB hB (i + 1) as bs p (scMuladd (kInt a) (kInt b) c) XA XB
      | _, _ => none
    | _, _ => none

/-- The state after a challenge: bulletproof.py 2788-2801, 2891-2906. -/
def challenge (H : Bytes → Bytes) (blind : Nat → Nat → Int) (d : P2) : Option P2 :=
  match d.L[d.round]?, d.R[d.round]? with
  | some L, some R =>
    let w := mash H d.cache [L, R]
    if w = 0 then none else some { d with cache := w, w := w, bl1 := blind d.draws, draws := d.draws + 1, offstate := 3, offpos := 0 }
  | _, _ => none

/-- bulletproof.py 2742-2808, 2816-2822: the end of state 20 or 21. -/
def clcrEnd (H : Bytes → Bytes) (blind : Nat → Nat → Int) (d : P2) : Option (Dev × Resp) :=
  let s20 := decide (d.offstate = 20)
  let bG := d.bl0 (if s20 then 1 else 0)
  let bH := d.bl0 (if s20 then 2 else 3)
  let ba := d.bl0 (if s20 then 4 else 5)
  let bb := d.bl0 (if s20 then 7 else 6)
  do
    let c := scMul d.c (scInv (scMul ba bb))
    let XA ← scalarmultKey d.XA (scInv (scMul ba (if d.round > 0 then bG else 1)))
    let XB ← scalarmultKey d.XB (scInv (scMul bb (if d.round > 0 then bH else 1)))
    let P ← closeDot d.fix.xip XA XB c
    if d.round ≥ d.fix.logMN then none
    else if s20 then some (.two { d with c := 0, XA := one, XB := one, L := d.L.set d.round P, offpos := 0, offstate := 21 }, .bufs [])
    else
      let d ← challenge H blind { d with R := d.R.set d.round P }
      some (.two d, .bufs (if d.fix.cfg.method ≥ 2 then consts d else []))

/-- bulletproof.py 2687-2822 `_phase2_loop0_clcr`. -/
def clcr (H : Bytes → Bytes) (blind : Nat → Nat → Int) (d : P2) (bufs : List Buf) : Option (Dev × Resp) :=
  let d := if d.offstate = 20 ∧ d.offpos = 0 then { d with c := 0, XA := one, XB := one } else d
  match bufs with
  | aB :: bB :: rest =>
    if d.round > 0 ∧ rest.length < 2 then none
    else
      let a := keyV d.fix.cfg.batching aB
      match clcrLoop H d (keyV d.fix.cfg.batching (rest.getD 0 [])) (keyV d.fix.cfg.batching (rest.getD 1 [])) 0 a
          (keyV d.fix.cfg.batching bB) d.powL d.c d.XA d.XB with
      | none => none
      | some (p, c, XA, XB) =>
        let d := { d with powL := p, c := c, XA := XA, XB := XB, offpos := d.offpos + min a.length d.fix.cfg.batching }
        if d.offpos ≥ d.nprime then clcrEnd H blind d else some (.two d, .bufs [])
  | _ => none

/-- bulletproof.py 2824-2939 `_phase2_loop_offdot`; each buffer has one element. -/
def offdot (H : Bytes → Bytes) (blind : Nat → Nat → Int) (d : P2) (bufs : List Buf) : Option (Dev × Resp) :=
  match bufs with
  | [cL] :: [cR] :: [LA] :: [LB] :: [RA] :: [RB] :: _ =>
    let ib := fun i => scInv (d.bl0 i)
    let ibg := fun i => if d.round = 0 then 1 else ib i
    do
      let cL := scMul (scMul (kInt cL) (ib 4)) (ib 7)
      let cR := scMul (scMul (kInt cR) (ib 5)) (ib 6)
      let LA ← scalarmultKey LA (scMul (ib 4) (ibg 1))
      let RA ← scalarmultKey RA (scMul (ib 5) (ibg 0))
      let LB ← scalarmultKey LB (scMul (ib 7) (ibg 2))
      let RB ← scalarmultKey RB (scMul (ib 6) (ibg 3))
      let L ← closeDot d.fix.xip LA LB cL
      let R ← closeDot d.fix.xip RA RB cR
      if d.round ≥ d.fix.logMN then none
      else
        let d ← challenge H blind { d with L := d.L.set d.round L, R := d.R.set d.round R }
        if d.round = 0 then some (.two d, .bufs (if d.fix.cfg.method ≥ 2 then consts d else []))
        else if d.fix.cfg.method ≥ 2 ∧ d.nprime ≤ d.fix.cfg.off2 then some (.two d, .bufs [])
        else if d.fix.cfg.method ≥ 2 then
          some (.two { d with offstate := 2, nprime := d.nprime / 2, round := d.round + 1, bl0 := d.bl1, bl1 := d.bl0, G := [], Hp := [], a := [], b := [] },
            .bufs (consts d))
        else some (.two d, .bufs [])
  | _ => none

/-- bulletproof.py 2993-3024 `_phase2_loop_r0foldGH`: `tgt` elements from position `i`. -/
def r0foldLoop (H : Bytes → Bytes) (d : P2) : Nat → Nat → Powers → Option (Powers × Buf)
  | 0, _, p => some (p, [])
  | n + 1, i, p =>
    let e : Option (Powers × Bytes) := if d.offstate = 3 then (gElem H d.fix i).map fun k => (p, k) else hElem H d.fix p i
    match e with
    | none => none
    | some (p, k) =>
      match scalarmultKey k (d.bl0 (2 * (d.offstate - 3))), r0foldLoop H d n (i + 1) p with
      | some k, some (p, ks) => some (p, k :: ks)
      | _, _ => none

/-- bulletproof.py 3081-3088: the factors of the two halves. -/
def foldA (d : P2) : Int :=
  let inv := if d.round = 0 ∧ d.offstate ≤ 4 then 1 else scInv (d.bl0 (2 * (d.offstate - 3)))
  scMul (if d.offstate = 3 ∨ d.offstate = 6 then scInv d.w else d.w) inv
def foldB (d : P2) : Int :=
  let inv := if d.round = 0 ∧ d.offstate ≤ 4 then 1 else scInv (d.bl0 (2 * (d.offstate - 3) + 1))
  scMul (if d.offstate = 3 ∨ d.offstate = 6 then d.w else scInv d.w) inv

/-- bulletproof.py 3076-3079, 3097-3099, 3111-3113: the new blind of the element at position `pos`, `none` if it stays on the device. -/
def newBlind (d : P2) (inmem : Bool) (pos : Nat) : Option Int :=
  if inmem then none else some (d.bl1 (2 * (d.offstate - 3) + half d.nprime pos))

/-- bulletproof.py 3094-3101. -/
def foldPt (a b : Int) (nb : Option Int) (lo hi : Bytes) : Option Bytes :=
  match decodePoint lo, decodePoint hi with
  | some p, some r => some (encodePoint (match nb with
    | some n => smul (addKeys3 a p b r) n
    | none => addKeys3 a p b r))
  | _, _ => none

/-- bulletproof.py 3106-3115. -/
def foldSc (a b : Int) (nb : Option Int) (lo hi : Bytes) : Bytes :=
  encodeInt (match nb with
    | some n => scMul (scAdd (scMul (kInt lo) a) (scMul (kInt hi) b)) n
    | none => scAdd (scMul (kInt lo) a) (scMul (kInt hi) b))

/-- bulletproof.py 3092-3116: `n` elements from index `i` of the chunk; in the first round the generators are read lazily. -/
def ufoldLoop (H : Bytes → Bytes) (d : P2) (tgt : Nat) (inmem : Bool) (loB hiB : Buf) : Nat → Nat → Powers → Powers → Option (Powers × Powers × Buf)
  | 0, _, pl, pr => some (pl, pr, [])
  | n + 1, i, pl, pr =>
    let np := d.nprime
    let li := sliceIdx d.offpos (min (d.offpos + tgt) np) i
    let hi := sliceIdx (np + d.offpos) (np + min (d.offpos + tgt) (2 * np)) i
    let lo : Option (Powers × Bytes) :=
      if d.round = 0 ∧ d.offstate = 3 then (li.bind (gElem H d.fix)).map fun k => (pl, k)
      else if d.round = 0 ∧ d.offstate = 4 then li.bind (hElem H d.fix pl)
      else loB[i]?.map fun k => (pl, k)
    let hi : Option (Powers × Bytes) :=
      if d.round = 0 ∧ d.offstate = 3 then (hi.bind (gElem H d.fix)).map fun k => (pr, k)
      else if d.round = 0 ∧ d.offstate = 4 then hi.bind (hElem H d.fix pr)
      else hiB[i]?.map fun k => (pr, k)
    match lo, hi with
    | some (pl, lo), some (pr, hi) =>
      let nb := newBlind d inmem (i + d.offpos)
      match (if d.offstate ≤ 4 then foldPt (foldA d) (foldB d) nb lo hi else some (foldSc (foldA d) (foldB d) nb lo hi)),
          ufoldLoop H d tgt inmem loB hiB n (i + 1) pl pr with
      | some k, some (pl, pr, ks) => some (pl, pr, k :: ks)
      | _, _ => none
    | _, _ => none

/-- Writing the elements `ks` from position `pos`. -/
def writeAt (v : Buf) (pos : Nat) (ks : Buf) : Buf := v.take pos ++ ks ++ v.drop (pos + ks.length)

/-- bulletproof.py 3059-3063: the vector of state `s` kept by the device, with the elements `ks` written from position `pos`. -/
def keep (d : P2) (ks : Buf) : P2 :=
  let v := fun old : Buf => writeAt (if d.offpos = 0 then List.replicate d.nprime zeroKey else old) d.offpos ks
  if d.offstate = 3 then { d with G := v d.G } else if d.offstate = 4 then { d with Hp := v d.Hp }
  else if d.offstate = 5 then { d with a := v d.a } else { d with b := v d.b }

/-- bulletproof.py 3137. -/
def inMem (d : P2) : Bool :=
  decide (d.round > 0) && (decide (d.nprime ≤ d.fix.cfg.thresh) || (decide (d.fix.cfg.method ≥ 2) && decide (d.nprime ≤ d.fix.cfg.off2)))

/-- bulletproof.py 3132-3136. -/
def target (d : P2) : Nat := min (if d.round = 0 ∧ d.offstate ≤ 4 then d.fix.cfg.batching * 2 else d.fix.cfg.batching) d.nprime

/-- bulletproof.py 3026-3122 `_phase2_loop_ufold`, with 3150-3155: with `nprime = 1` the device keeps the folded `a` and `b` in any case. -/
def ufold (H : Bytes → Bytes) (d : P2) (bufs : List Buf) (tgt : Nat) (inmem : Bool) : Option (P2 × Buf) :=
  let m := d.fix.cfg.method
  let lazy := decide (d.round = 0) && decide (d.offstate ≤ 4)
  if lazy = false ∧ bufs.length < 2 then none
  else if ¬ (m < 2 ∨ d.fix.cfg.off2 ≤ d.fix.cfg.thresh) then none
  else if inmem = true ∧ d.offpos + tgt > d.nprime then none
  else
    let pr := if lazy = true ∧ d.offpos = 0 ∧ d.offstate = 4 ∧ m ≤ 2 then (Powers.get d.fix.MN (scInv d.fix.y) d.powR 0).1.rewind (scInv d.fix.y) d.nprime
      else d.powR
    match ufoldLoop H d tgt inmem (keyV 0 (bufs.getD 0 [])) (keyV 0 (bufs.getD 1 [])) tgt 0 d.powL pr with
    | none => none
    | some (pl, pr, ks) =>
      let d := if inmem = true ∨ (d.nprime = 1 ∧ d.offstate ≥ 5) then keep d ks else d
      some ({ d with powL := pl, powR := pr, offpos := d.offpos + tgt }, ks)

/-- bulletproof.py 3145-3184: the state transition. -/
def foldNext (d : P2) (inmem : Bool) : P2 :=
  let d := if d.offpos ≥ d.nprime then { d with offpos := 0, offstate := d.offstate + 1 } else d
  let d :=
    if d.offstate ≥ 7 ∨ (d.round = 0 ∧ d.fix.cfg.method ≥ 2 ∧ d.offstate ≥ 5) then
      { d with nprime := d.nprime / 2, round := d.round + 1, bl0 := d.bl1, bl1 := d.bl0,
               offstate := if inmem then 10 else if d.fix.cfg.method ≥ 1 then 2 else 20 }
    else d
  if d.nprime = 0 then { d with offstate := 12 } else d

/-- bulletproof.py 3124-3190 `_phase2_loop_fold`. -/
def fold (H : Bytes → Bytes) (d : P2) (bufs : List Buf) : Option (Dev × Resp) :=
  let tgt := target d
  let inmem := inMem d
  if d.fix.cfg.method = 3 ∧ d.round = 0 ∧ d.offstate ≤ 4 then
    match r0foldLoop H d tgt d.offpos d.powL with
    | none => none
    | some (p, ks) => some (.two (foldNext { d with powL := p, offpos := d.offpos + tgt } inmem), .bufs [ks])
  else
    match ufold H d bufs tgt inmem with
    | none => none
    | some (d', ks) => some (.two (foldNext d' inmem), .bufs (if inmem then [] else [ks]))

/-- bulletproof.py 3192-3198 `_phase2_final`. -/
def final (f : Fix) (L R : List Bytes) (a b : Int) : Proof :=
  ⟨f.V, f.A, f.S, f.T1, f.T2, encodeInt f.taux, encodeInt f.mu, L, R, encodeInt a, encodeInt b, encodeInt f.t⟩

/-- bulletproof.py 3200-3205 `_phase2_loop_full` (state 10) with the loop body 3253-3382 (`Bp.proveLoop`), and `_phase2_final` (state 12), where
`a` and `b` are the only elements left. -/
def full (H : Bytes → Bytes) (d : P2) : Option (Dev × Resp) :=
  match proveLoop H d.fix.xip (d.fix.logMN + 1) d.nprime d.cache d.G d.Hp (d.a.map kInt) (d.b.map kInt) with
  | none => none
  | some r => some (.two d, .proof (final d.fix (d.L.take d.round ++ r.1) (d.R.take d.round ++ r.2.1) r.2.2.1 r.2.2.2))

/-- bulletproof.py 2385-2401 `prove_batch_off_step`. -/
def step (H : Bytes → Bytes) (rnd : Rand) (blind : Nat → Nat → Int) (d : Dev) (bufs : List Buf) : Option (Dev × Resp) :=
  match d with
  | .one d => if d.done then phase1Post H rnd d else phase1Lr rnd d
  | .two d =>
    if d.offstate = 2 then offdot H blind d bufs
    else if 3 ≤ d.offstate ∧ d.offstate ≤ 6 then fold H d bufs
    else if d.offstate = 20 ∨ d.offstate = 21 then clcr H blind d bufs
    else if d.offstate = 10 ∨ d.offstate = 12 then full H d
    else none

/-! ## The host -/

/-- bulletproof_cl.py 162-168 `bp_tx_buffers`: a message to the device whose answer is buffers. -/
def tx (H : Bytes → Bytes) (rnd : Rand) (blind : Nat → Nat → Int) (d : Dev) (bufs : List Buf) : Option (Dev × List Buf) :=
  match step H rnd blind d bufs with
  | some (d, .bufs b) => some (d, b)
  | _ => none

/-- bulletproof_cl.py 53-58 `comp_fold_idx`: the chunk `i` of the low half and of the half from `n` on. -/
def chunkLo (b i : Nat) (v : Buf) : Buf := (v.drop (i * b)).take b
def chunkHi (b n i : Nat) (v : Buf) : Buf := (v.drop (i * b + n)).take b

/-- bulletproof.py 382-383 `slice_view`; `none` is the IndexError at the first missing element. -/
def sliceV (v : Buf) (start stop : Nat) : Option Buf := if stop ≤ v.length then some ((v.drop start).take (stop - start)) else none

/-- bulletproof.py 1071-1086 `_vector_sum_aA`. -/
def vecSumLoop : Buf → Buf → Ext → Option Ext
  | [], _, acc => some acc
  | _ :: _, [], _ => none
  | a :: as, A :: As, acc =>
    match decodePoint A with
    | some p => vecSumLoop as As (add acc (smul p (kInt a)))
    | none => none
def vecSum (a A : Buf) : Option Bytes := (vecSumLoop a A ident).map encodePoint

/-- bulletproof_cl.py 81-97 `comp_offdots`. -/
def compOffdots (G Hp a b : Buf) (n : Nat) : Option (List Buf) := do
  let a0 ← sliceV a 0 n
  let a1 ← sliceV a n (2 * n)
  let b0 ← sliceV b 0 n
  let b1 ← sliceV b n (2 * n)
  let G0 ← sliceV G 0 n
  let G1 ← sliceV G n (2 * n)
  let H0 ← sliceV Hp 0 n
  let H1 ← sliceV Hp n (2 * n)
  let cL ← innerProduct (a0.map kInt) (b1.map kInt)
  let cR ← innerProduct (a1.map kInt) (b0.map kInt)
  let LA ← vecSum a0 G1
  let LB ← vecSum b1 H0
  let RA ← vecSum a1 G0
  let RB ← vecSum b0 H1
  some [[encodeInt cL], [encodeInt cR], [LA], [LB], [RA], [RB]]

/-- bulletproof.py 1237-1257 `_scalar_fold` with `full_v`, on encoded scalars. -/
def foldScs (a b : Int) (lo hi : Buf) : Buf := lo.zipWith (fun x y => foldSc a b none x y) hi

/-- bulletproof_cl.py 61-78 `comp_folding`. The writes to the low half come after the reads of the same elements. -/
def compFolding (cs : List Buf) (n : Nat) (v : Buf) (ix : Nat) : Option Buf := do
  let c := fun i => (cs[4 * ix + i]?).bind (·.head?) |>.map kInt
  let a0 ← c 0
  let a1 ← c 1
  let a2 ← c 2
  let a3 ← c 3
  let P0 ← sliceV v 0 (n / 2)
  let P1 ← sliceV v n (n + n / 2)
  let P2 ← sliceV v (n / 2) n
  let P3 ← sliceV v (n + n / 2) (n * 2)
  if ix ≤ 1 then do
    let lo ← foldKeys a0 a1 P0 P1
    let hi ← foldKeys a2 a3 P2 P3
    some (lo ++ hi)
  else some (foldScs a0 a1 P0 P1 ++ foldScs a2 a3 P2 P3)

/-- bulletproof_cl.py 273-284: element by element subtraction of what the device sent. -/
def subAll : Buf → Buf → Option Buf
  | [], _ => some []
  | _ :: _, [] => none
  | A :: As, B :: Bs =>
    match subKeys A B, subAll As Bs with
    | some k, some ks => some (k :: ks)
    | _, _ => none

section
variable (H : Bytes → Bytes) (rnd : Rand) (blind : Nat → Nat → Int)

/-- Messages whose first answered buffers are collected (bulletproof_cl.py 249-256, 295-304, 366-375); `msg i` is the `i`-th message. -/
def collect (msg : Nat → List Buf) : Nat → Nat → Dev → Option (Dev × Buf)
  | 0, _, d => some (d, [])
  | n + 1, i, d =>
    match tx H rnd blind d (msg i) with
    | none => none
    | some (d, res) =>
      match collect msg n (i + 1) d with
      | none => none
      | some (d, rest) => some (d, res.flatten ++ rest)

/-- bulletproof_cl.py 198-202: the remaining `l`, `r` chunks. -/
def recvLr : Nat → Dev → Buf → Buf → Option (Dev × Buf × Buf)
  | 0, d, l, r => some (d, l, r)
  | n + 1, d, l, r =>
    match tx H rnd blind d [] with
    | some (d, [l0, r0]) => recvLr n d (l ++ l0) (r ++ r0)
    | _ => none

/-- bulletproof_cl.py 215-227, 326-340: `cnt` chunks of the low `a` and high `b`, then of the high `a` and low `b`. In the first round (`gh` is
`none`) the generators are not sent. -/
def sendDots (b n cnt : Nat) (gh : Option (Buf × Buf)) (a bv : Buf) (d : Dev) : Option Dev :=
  let one := collect H rnd blind (fun i =>
    [chunkLo b i a, chunkHi b n i bv] ++ (match gh with | some (G, Hp) => [chunkHi b n i G, chunkLo b i Hp] | none => [])) cnt 0 d
  let two := one.bind fun r => collect H rnd blind (fun i =>
    [chunkHi b n i a, chunkLo b i bv] ++ (match gh with | some (G, Hp) => [chunkLo b i G, chunkHi b n i Hp] | none => [])) cnt 0 r.1
  two.map (·.1)

/-- bulletproof_cl.py 211-239, 323-347: the dot products of a round; the second component is the answer to the last message (the folding
constants, empty with method 0). -/
def dots (cfg : Cfg) (n cnt : Nat) (first : Bool) (G Hp a bv : Buf) (d : Dev) : Option (Dev × List Buf) :=
  if cfg.method = 0 then (sendDots H rnd blind cfg.batching n cnt (if first then none else some (G, Hp)) a bv d).map fun d => (d, [])
  else (compOffdots G Hp a bv n).bind (tx H rnd blind d)

/-- bulletproof_cl.py 362-377: folding of one vector by the device. -/
def devFold (b n cnt : Nat) (v : Buf) (d : Dev) : Option (Dev × Buf) :=
  collect H rnd blind (fun i => [chunkLo b i v, chunkHi b n i v]) cnt 0 d

/-- The vectors the host holds. -/
structure Host where
  G : Buf
  Hp : Buf
  a : Buf
  b : Buf

/-- bulletproof_cl.py 349-386: the folding of a round; `KeyV(nprime//2, nf)` of an empty buffer is a zero vector. -/
def foldRound (cfg : Cfg) (n : Nat) (cs : List Buf) (h : Host) (d : Dev) : Option (Dev × Host) :=
  if cfg.method ≥ 2 ∧ cs ≠ [] then do
    let G ← compFolding cs n h.G 0
    let Hp ← compFolding cs n h.Hp 1
    let a ← compFolding cs n h.a 2
    let b ← compFolding cs n h.b 3
    some (d, ⟨G, Hp, a, b⟩)
  else do
    let cnt := max 1 (n / min cfg.batching n)
    let (d, G) ← devFold H rnd blind cfg.batching n cnt h.G d
    let (d, Hp) ← devFold H rnd blind cfg.batching n cnt h.Hp d
    let (d, a) ← devFold H rnd blind cfg.batching n cnt h.a d
    let (d, b) ← devFold H rnd blind cfg.batching n cnt h.b d
    some (d, ⟨keyV (n / 2) G, keyV (n / 2) Hp, keyV (n / 2) a, keyV (n / 2) b⟩)

/-- bulletproof_cl.py 316-386: the loop, after the test of its condition; `n` is `nprime`. -/
def clientLoop (cfg : Cfg) : Nat → Nat → Host → Dev → Option Dev
  | 0, _, _, _ => none
  | fuel + 1, n, h, d => do
    let (d, cs) ← dots H rnd blind cfg n (n / cfg.batching) false h.G h.Hp h.a h.b d
    let (d, h) ← foldRound H rnd blind cfg n cs h d
    if n / 2 ≥ cfg.thresh ∨ (cfg.method ≥ 2 ∧ n / 2 ≥ cfg.off2) then clientLoop cfg fuel (n / 2) h d else some d

/-- bulletproof_cl.py 241-307: the folding of the first round. -/
def firstFold (cfg : Cfg) (MN : Nat) (y : Int) (cs : List Buf) (l r : Buf) (d : Dev) : Option (Dev × Host) := do
  let cbatch := max 1 (MN / 2 / cfg.batching / 2)
  let (d, G) ← collect H rnd blind (fun _ => []) cbatch 0 d
  let (d, Hp) ← collect H rnd blind (fun _ => []) cbatch 0 d
  let G := keyV (MN / 2) G
  let Hp := keyV (MN / 2) Hp
  let Gs := (List.range MN).map (gGen H)
  let G ← if cfg.method = 3 then (compFolding cs (MN / 2) Gs 0).bind fun F => subAll F G else some G
  let Hp ← if cfg.method = 3 then
      (hPrime (scInv y) 0 ((List.range MN).map (hGen H))).bind fun Hs => (compFolding cs (MN / 2) Hs 1).bind fun F => subAll F Hp
    else some Hp
  if cfg.method ≥ 2 then do
    let a ← compFolding cs (MN / 2) l 2
    let b ← compFolding cs (MN / 2) r 3
    some (d, ⟨G, Hp, a, b⟩)
  else do
    let (d, a) ← devFold H rnd blind cfg.batching (MN / 2) (MN / cfg.batching / 2) l d
    let (d, b) ← devFold H rnd blind cfg.batching (MN / 2) (MN / cfg.batching / 2) r d
    some (d, ⟨G, Hp, keyV (MN / 2) a, keyV (MN / 2) b⟩)

/-- bulletproof_cl.py 182-396 `compute_bp`. The amounts and masks are the device's (the test device of bulletproof_cl.py 451-452 makes some up);
`M` is their number. The encoding of the proof in the last answer (519, 394) is the identity here. -/
def computeBp (cfg : Cfg) (sv gamma : List Int) : Option Proof := do
  let MN := 64 * sv.length
  let (d, res) ← start H rnd blind cfg sv gamma
  match res with
  | .bufs [l0, r0] =>
    let (d, l, r) ← recvLr H rnd blind (MN / cfg.batching - 1) d l0 r0
    let (d, res) ← tx H rnd blind d []
    let y ← (res.head?.bind (·.head?)).map kInt
    let Hs ← if cfg.method = 0 then some [] else hPrime (scInv y) 0 ((List.range MN).map (hGen H))
    let (d, cs) ← dots H rnd blind cfg (MN / 2) (MN / cfg.batching / 2) true ((List.range MN).map (gGen H)) Hs l r d
    let (d, h) ← firstFold H rnd blind cfg MN y cs l r d
    let d ← clientLoop H rnd blind cfg (MN + 1) (MN / 4) h d
    match step H rnd blind d [] with
    | some (_, .proof p) => some p
    | _ => none
  | _ => none

end

end Verif.Off
