import Verif.Model.Sig
import Verif.Model.BpTables

/-!
Bulletproof range proofs: xmr/bulletproof.py (`BulletProofBuilder.prove_batch`, `verify_batch`) and xmr/ring_ct.py 63-91.
Scalar registers are the integer whose 32-byte encoding the program keeps in them; points are kept encoded, as in the program.
The global work registers and the buffers shared by vectors are values here; lazily computed vectors are functions of the index
(Model/KeyV.lean models the objects). Exceptions are `none`. `H` is Keccak-256.
-/

namespace Verif.Bp
open Verif Ed Key Sig

/-! ## Operations on encoded points, bulletproof.py 160-324 -/

/-- bulletproof.py 27 `_INV_EIGHT` as a number (`decodeint_into_noreduce`). -/
def inv8 : Int := bitSum invEight 256

/-- bulletproof.py 160-167 `_scalarmult_key`. -/
def scalarmultKey (P : Bytes) (s : Int) : Option Bytes := (decodePoint P).map fun p => encodePoint (smul p s)

/-- bulletproof.py 170-175 `_scalarmultH`. -/
def scalarmultH (x : Int) : Bytes := encodePoint (smul hPt (x % l))

/-- bulletproof.py 178-183 `_scalarmult_base`. -/
def scalarmultBase (x : Int) : Bytes := encodePoint (scalarmultB x)

/-- bulletproof.py 255-261 `_add_keys`. -/
def addKeys (A B : Bytes) : Option Bytes :=
  match decodePoint A, decodePoint B with
  | some a, some b => some (encodePoint (add a b))
  | _, _ => none

/-- bulletproof.py 264-270 `_sub_keys`. -/
def subKeys (A B : Bytes) : Option Bytes :=
  match decodePoint A, decodePoint B with
  | some a, some b => some (encodePoint (sub a b))
  | _, _ => none

/-- bulletproof.py 273-280 `_add_keys2`. -/
def addKeys2 (a b : Int) (B : Bytes) : Option Bytes := (decodePoint B).map fun p => encodePoint (Key.addKeys2 a b p)

/-- bulletproof.py 301-310 `_hash_vct_to_scalar`. -/
def hashVct (H : Bytes → Bytes) (data : List Bytes) : Int := hs H data.flatten

/-- bulletproof.py 1378-1392 `_hash_cache_mash`: the result is also the new cache. -/
def mash (H : Bytes → Bytes) (cache : Int) (args : List Bytes) : Int := hs H (encodeInt cache ++ args.flatten)

/-- bulletproof.py 313-324 `_get_exponent` with `base = _XMR_H`: the salt is "bulletproof". -/
def getExponent (H : Bytes → Bytes) (idx : Nat) : Bytes :=
  encodePoint (hp H (H (xmrH ++ [0x62, 0x75, 0x6c, 0x6c, 0x65, 0x74, 0x70, 0x72, 0x6f, 0x6f, 0x66] ++ Varint.dumpNat idx)))

/-- bulletproof.py 1938-1941 `_gprec_aux` (`KeyVPrecomp` 739-751): precomputed prefix, computed from there on. -/
def gGen (H : Bytes → Bytes) (i : Nat) : Bytes :=
  match giPre[i]? with
  | some n => encodeInt (n : Int)
  | none => getExponent H (i * 2 + 1)

/-- bulletproof.py 1943-1946 `_hprec_aux`. -/
def hGen (H : Bytes → Bytes) (i : Nat) : Bytes :=
  match hiPre[i]? with
  | some n => encodeInt (n : Int)
  | none => getExponent H (i * 2)

/-! ## Vectors, bulletproof.py 1089-1283 -/

/-- bulletproof.py 1089-1113 `_vector_exponent_custom`: the loop. -/
def vecExpLoop : List Bytes → List Bytes → List Int → List Int → Ext → Option Ext
  | _, _, [], _, acc => some acc
  | A :: As, B :: Bs, a :: as, b :: bs, acc =>
    match decodePoint A, decodePoint B with
    | some p, some r => vecExpLoop As Bs as bs (add acc (addKeys3 a p b r))
    | _, _ => none
  | _, _, _ :: _, _, _ => none

/-- bulletproof.py 1089-1113 `_vector_exponent_custom`. -/
def vecExp (A B : List Bytes) (a b : List Int) : Option Bytes := (vecExpLoop A B a b ident).map encodePoint

/-- bulletproof.py 1163-1179 `_inner_product`. -/
def innerProduct (a b : List Int) : Option Int :=
  if a.length ≠ b.length then none else some ((a.zip b).foldl (fun acc p => scMuladd p.1 p.2 acc) 0)

/-- One element of bulletproof.py 1182-1202 `_hadamard_fold`. -/
def foldKey (a b : Int) (lo hi : Bytes) : Option Bytes :=
  match decodePoint lo, decodePoint hi with
  | some p, some r => some (encodePoint (addKeys3 a p b r))
  | _, _ => none

/-- The loop of `_hadamard_fold` over the two halves. -/
def foldKeys (a b : Int) : List Bytes → List Bytes → Option (List Bytes)
  | [], _ => some []
  | lo :: los, hi :: his =>
    match foldKey a b lo hi, foldKeys a b los his with
    | some k, some ks => some (k :: ks)
    | _, _ => none
  | _ :: _, [] => none

/-- bulletproof.py 1182-1202 `_hadamard_fold` followed by `resize(nprime)`, with `nprime = |v| / 2`. -/
def hadamardFold (v : List Bytes) (a b : Int) : Option (List Bytes) := foldKeys a b (v.take (v.length / 2)) (v.drop (v.length / 2))

/-- bulletproof.py 1237-1257 `_scalar_fold` followed by `resize(nprime)`. -/
def scalarFold (v : List Int) (a b : Int) : List Int :=
  (v.take (v.length / 2)).zipWith (fun lo hi => scAdd (scMul lo a) (scMul hi b)) (v.drop (v.length / 2))

/-- Powers as `KeyVPowers` (bulletproof.py 805-831) and `_vector_powers` (1116-1137) compute them. -/
def pw (x : Int) : Nat → Int
  | 0 => 1
  | 1 => x
  | i + 2 => scMul (pw x (i + 1)) x

/-- `z^{2 + i/N}` as `KeyR0` (bulletproof.py 970-988) computes it. -/
def ztAt (z : Int) : Nat → Int
  | 0 => scMul z z
  | j + 1 => scMul (ztAt z j) z

/-- `2^{i % N}` as `KeyR0` computes it. -/
def p2At : Nat → Int
  | 0 => 1
  | i + 1 => scMul (p2At i) 2

/-- `y^i` as `KeyR0` computes it. -/
def ypAt (y : Int) : Nat → Int
  | 0 => 1
  | i + 1 => scMul (ypAt y i) y

/-- bulletproof.py 970-1014 `KeyR0[i]`: `(aR_i + z) y^i + z^{2 + i/N} 2^{i % N}`. -/
def r0At (aRi y z : Int) (i : Nat) : Int := scMuladd (ztAt z (i / 64)) (p2At (i % 64)) (scMul (scAdd aRi z) (ypAt y i))

/-- bulletproof.py 1140-1160 `_vector_power_sum`; the loop. -/
def powerSumLoop (x : Int) : Nat → Int → Int → Int
  | 0, _, acc => acc
  | n + 1, cur, acc => powerSumLoop x n (scMul cur x) (scAdd acc (scMul cur x))

/-- bulletproof.py 1140-1160: for `n = 1` the early result is overwritten by `1 + x`. -/
def powerSum (x : Int) (n : Nat) : Int := if n = 0 then 0 else powerSumLoop x (n - 2) x (scAdd 1 x)

/-! ## Prover -/

/-- bulletproof.py 2326-2332 `_comp_m`, 3460-3464: `logM` after `while M <= 16 and M < n`. -/
def logMLoop (n : Nat) : Nat → Nat → Nat
  | 0, lg => lg
  | fuel + 1, lg => if 2 ^ lg ≤ 16 ∧ 2 ^ lg < n then logMLoop n fuel (lg + 1) else lg
def logM (n : Nat) : Nat := logMLoop n 6 0

/-- bulletproof.py 1638-1649 `_e_xL`: the bit of the amount; -1 is `_MINUS_ONE`. -/
def aLAt (sv : List Int) (idx : Nat) : Int :=
  match sv[idx / 64]? with
  | none => 0
  | some v => if bit (encodeInt v) (idx % 64) ≠ 0 then 1 else 0
def aRAt (sv : List Int) (idx : Nat) : Int :=
  match sv[idx / 64]? with
  | none => l - 1
  | some v => if bit (encodeInt v) (idx % 64) ≠ 0 then 0 else l - 1

/-- The random values of one proof. -/
structure Rand where
  alpha : Int
  rho : Int
  tau1 : Int
  tau2 : Int
  sL : Nat → Int
  sR : Nat → Int

/-- bulletproof.py 2337-2340, 2509-2513: `8^{-1} (g G + v H)`. -/
def commit8 (g v : Int) : Option Bytes := (addKeys2 g v xmrH).bind (scalarmultKey · inv8)

/-- bulletproof.py 2334-2340 `_comp_V`. -/
def compV : List Int → List Int → Option (List Bytes)
  | [], _ => some []
  | v :: sv, g :: gamma =>
    (compV sv gamma).bind fun Vs => (commit8 g v).map fun V => V :: Vs
  | _ :: _, [] => none

/-- bulletproof.py 2464-2473 and 2475-2483: `8^{-1} (e G + <a, Gi> + <b, Hi>)`. -/
def vecCommit (G Hp : List Bytes) (a b : List Int) (e : Int) : Option Bytes := do
  let P ← vecExp G Hp a b
  let P ← addKeys P (scalarmultBase e)
  scalarmultKey P inv8

/-- bulletproof.py 1260-1283 `_cross_inner_product`: `t1`, `t2`. -/
def crossLoop (l0 r0 l1 r1 : Nat → Int) : List Nat → Int × Int → Int × Int
  | [], acc => acc
  | i :: is, (t1, t2) =>
    let t1 := scMuladd (l0 i) (r1 i) t1
    let t2 := scMuladd (l1 i) (r1 i) t2
    crossLoop l0 r0 l1 r1 is (scMuladd (l1 i) (r0 i) t1, t2)

/-- bulletproof.py 2631-2634: the masks added to `taux`. -/
def tauxLoop (z : Int) : List Int → Int → Int → Int
  | [], _, taux => taux
  | g :: gs, zpow, taux => tauxLoop z gs (scMul zpow z) (scMuladd zpow g taux)

/-- bulletproof.py 3330-3333 with the loop 3411-3413: a round whose challenge is zero is repeated with the zero cache; if it is zero again
the program does not terminate. -/
def roundChallenge (H : Bytes → Bytes) (cache : Int) (L R : Bytes) : Option Int :=
  let w := mash H cache [L, R]
  if w = 0 then
    let w := mash H 0 [L, R]
    if w = 0 then none else some w
  else some w

/-- bulletproof.py 3290-3325: `8^{-1} (<a, G> + <b, H> + (c x_ip) H)`. -/
def roundCommit (G Hp : List Bytes) (a b : List Int) (c xip : Int) : Option Bytes := do
  let P ← vecExp G Hp a b
  let P ← addKeys P (scalarmultH (scMul c xip))
  scalarmultKey P inv8

/-- bulletproof.py 3253-3382 `_phase2_loop_body` repeated as in 3411-3415 (`_prove_loop`). `n` is `nprime`. -/
def proveLoop (H : Bytes → Bytes) (xip : Int) : Nat → Nat → Int → List Bytes → List Bytes → List Int → List Int →
    Option (List Bytes × List Bytes × Int × Int)
  | 0, _, _, _, _, _, _ => none
  | fuel + 1, n, cache, G, Hp, a, b =>
    if n = 0 then
      match a[0]?, b[0]? with
      | some a0, some b0 => some ([], [], a0, b0)
      | _, _ => none
    else do
      let cL ← innerProduct (a.take n) ((b.drop n).take n)
      let cR ← innerProduct ((a.drop n).take n) (b.take n)
      let L ← roundCommit ((G.drop n).take n) (Hp.take n) (a.take n) ((b.drop n).take n) cL xip
      let R ← roundCommit (G.take n) ((Hp.drop n).take n) ((a.drop n).take n) (b.take n) cR xip
      let w ← roundChallenge H cache L R
      let winv := scInv w
      let G' ← hadamardFold G winv w
      let H' ← hadamardFold Hp w winv
      let r ← proveLoop H xip fuel (n / 2) w G' H' (scalarFold a w winv) (scalarFold b winv w)
      some (L :: r.1, R :: r.2.1, r.2.2)

/-- `Bulletproof` of the serialization library. -/
structure Proof where
  V : List Bytes
  A : Bytes
  S : Bytes
  T1 : Bytes
  T2 : Bytes
  taux : Bytes
  mu : Bytes
  L : List Bytes
  R : List Bytes
  a : Bytes
  b : Bytes
  t : Bytes
deriving DecidableEq

/-- bulletproof.py 3204-3233: `y^{-i} H_i`. -/
def hPrime (yinv : Int) : Nat → List Bytes → Option (List Bytes)
  | _, [] => some []
  | i, h :: hs =>
    match scalarmultKey h (pw yinv i), hPrime yinv (i + 1) hs with
    | some k, some ks => some (k :: ks)
    | _, _ => none

/-- bulletproof.py 2357-2367 `prove_batch` (fresh builder): 2342-2355 `prove_setup`, 2403-2428 `_prove_batch_main`, 2455-2530 `_prove_phase1`,
2542-2565 `_phase1_fulllr`, 2616-2664 `_phase1_post`, 3384-3415 `_prove_loop`. After a zero `y`, `z` or `x` the vectors `l`, `r` are missing and
`_prove_loop` raises; a zero `x_ip` goes unnoticed. -/
def proveBatch (H : Bytes → Bytes) (rnd : Rand) (sv gamma : List Int) : Option Proof :=
  if sv.length ≠ gamma.length ∨ sv.length = 0 then none
  else
    let lgM := logM sv.length
    let MN := 2 ^ lgM * 64
    let idx := List.range MN
    let G := idx.map (gGen H)
    let Hp := idx.map (hGen H)
    do
      let V ← compV sv gamma
      let cache := hashVct H V
      let A ← vecCommit G Hp (idx.map (aLAt sv)) (idx.map (aRAt sv)) rnd.alpha
      let S ← vecCommit G Hp (idx.map rnd.sL) (idx.map rnd.sR) rnd.rho
      let y := mash H cache [A, S]
      if y = 0 then none else
      let z := hs H (encodeInt y)
      if z = 0 then none else
      let l0 := fun i => scSub (aLAt sv i) z
      let r0 := fun i => r0At (aRAt sv i) y z i
      let r1 := fun i => scMul (rnd.sR i) (pw y i)
      let tt := crossLoop l0 r0 rnd.sL r1 idx (0, 0)
      let T1 ← commit8 rnd.tau1 tt.1
      let T2 ← commit8 rnd.tau2 tt.2
      let x := mash H z [encodeInt z, T1, T2]
      if x = 0 then none else
      let lv := idx.map fun i => scMuladd x (rnd.sL i) (l0 i)
      let rv := idx.map fun i => scMuladd x (r1 i) (r0 i)
      let t := (lv.zip rv).foldl (fun acc p => scMuladd p.1 p.2 acc) 0
      let taux := tauxLoop z gamma (scMul z z) (scMuladd rnd.tau2 (scMul x x) (scMul rnd.tau1 x))
      let mu := scMuladd x rnd.rho rnd.alpha
      let xip := mash H x [encodeInt x, encodeInt taux, encodeInt mu, encodeInt t]
      let H' ← hPrime (scInv y) 0 Hp
      let r ← proveLoop H xip (lgM + 7) (MN / 2) xip G H' lv rv
      some ⟨V, A, S, T1, T2, encodeInt taux, encodeInt mu, r.1, r.2.1, encodeInt r.2.2.1, encodeInt r.2.2.2, encodeInt t⟩

/-- ring_ct.py 63-71 `prove_range_bp_batch`; `sc_init` (ec_py.py 450-453) refuses more than 64 bits. -/
def proveRangeBp (H : Bytes → Bytes) (rnd : Rand) (amounts : List Nat) (masks : List Int) : Option Proof :=
  if amounts.any (fun a => 2 ^ 64 ≤ a) then none else proveBatch H rnd (amounts.map fun a : Nat => (a : Int)) masks

/-- The 32 bytes of `ctr.to_bytes(32, 'big')`. -/
def be32 (n : Nat) : Bytes := (encodeInt (n : Int)).reverse

/-- core/ec.py 34-72 `PRNG` with `next(32)` called `i + 1` times: the last block, reduced as bulletproof.py 186-192 `_sc_gen` and 884-887
`KeyVPrngMask._next` do. -/
def prngAt (H : Bytes → Bytes) (seed : Bytes) (i : Nat) : Int := hs H (seed ++ be32 (i + 1))

/-- The randomness of a proof made after `n` scalars were drawn since the module was loaded: bulletproof.py 50 `PRNG = crypto.prng(_ZERO)`, drawn
four times per proof (2465, 2478, 2512), and 1968-1980 `sL_vct`, `sR_vct` with the seeds `_ZERO` and `_ONE`. -/
def processRand (H : Bytes → Bytes) (n : Nat) : Rand :=
  { alpha := prngAt H (List.replicate 32 0) n, rho := prngAt H (List.replicate 32 0) (n + 1), tau1 := prngAt H (List.replicate 32 0) (n + 2),
    tau2 := prngAt H (List.replicate 32 0) (n + 3), sL := prngAt H (List.replicate 32 0), sR := prngAt H (1 :: List.replicate 31 0) }

/-! ## Verifier -/

/-- bulletproof.py 1420-1421 `_is_reduced` as asserted: the value if reduced. -/
def reduced (s : Bytes) : Option Int := (decodeScalar s).bind fun v => if encodeInt v = s then some v else none

/-- `_acc` of `MultiExpSequential` (bulletproof.py 1562-1568) over pairs. -/
def muex : List (Int × Bytes) → Ext → Option Ext
  | [], acc => some acc
  | (s, P) :: rest, acc =>
    match decodePoint P with
    | some p => muex rest (add acc (smul p s))
    | none => none

/-- bulletproof.py 3532-3538: the challenges of the rounds. -/
def roundChallenges (H : Bytes → Bytes) : Int → List Bytes → List Bytes → Option (List Int)
  | _, [], _ => some []
  | cache, L :: Ls, R :: Rs =>
    let w := mash H cache [L, R]
    if w = 0 then none else (roundChallenges H w Ls Rs).map fun ws => w :: ws
  | _, _ :: _, [] => none

/-- bulletproof.py 3560-3568: the factors of `g_scalar` and `h_scalar`; `j` is the number of challenges after the current one. -/
def ghLoop (i : Nat) : List Int → Int → Int → Int × Int
  | [], g, h => (g, h)
  | w :: ws, g, h =>
    if i &&& (1 <<< ws.length) = 0 then ghLoop i ws (scMul g (scInv w)) (scMul h w)
    else ghLoop i ws (scMul g w) (scMul h (scInv w))

/-- bulletproof.py 3491-3493: the loop of `k`; `j` runs from 1 to `M`. -/
def kLoop (z : Int) : Nat → Nat → Int → Int
  | 0, _, k => k
  | n + 1, j, k => kLoop z n (j + 1) (scMulsub (pw z (j + 2)) 18446744073709551615 k)

/-- Aggregates of bulletproof.py 3446-3454; `z4`, `z5` only when not single. -/
structure Agg where
  z1 : Int
  z3 : Int
  z4 : List Int
  z5 : List Int
  y0 : Int
  y1 : Int
  acc : Bytes

/-- bulletproof.py 3556-3590: `g_scalar`, `h_scalar` of index `i`. -/
def ghScalars (a b y z : Int) (ws : List Int) (i : Nat) : Int × Int :=
  let yinvpow := ypAt (scInv y) i
  let gh := ghLoop i ws a (scMul b yinvpow)
  (scAdd gh.1 z, scMulsub (scMuladd z (ypAt y i) (scMul (pw z (2 + i / 64)) (pw 2 (i % 64)))) yinvpow gh.2)

/-- bulletproof.py 3581-3590: the single-proof accumulation. -/
def singleLoop (H : Bytes → Bytes) (gh : Nat → Int × Int) (wz : Int) : List Nat → Bytes → Option Bytes
  | [], acc => some acc
  | i :: is, acc => do
    let g ← scalarmultKey (gGen H i) (scMul (gh i).1 wz)
    let acc ← subKeys acc g
    let h ← scalarmultKey (hGen H i) (scMul (gh i).2 wz)
    let acc ← subKeys acc h
    singleLoop H gh wz is acc

/-- bulletproof.py 3578-3590: a single proof's generators go to the accumulator. -/
def accGens (H : Bytes → Bytes) (single : Bool) (gh : Nat → Int × Int) (wz : Int) (MN : Nat) (acc : Bytes) : Option Bytes :=
  if single then singleLoop H gh wz (List.range MN) acc else some acc

/-- bulletproof.py 3579-3580: `m_z4[i] -= g wz` for `i < MN`. -/
def subScaled (f : Nat → Int) (wz : Int) (MN : Nat) (m : List Int) : List Int :=
  m.mapIdx fun i v => if i < MN then scMulsub (f i) wz v else v

/-- The scalars of a proof after bulletproof.py 3429-3433. -/
structure Scalars where
  taux : Int
  mu : Int
  a : Int
  b : Int
  t : Int

/-- bulletproof.py 3428-3437: the first loop, for one proof. -/
def precheck (p : Proof) : Option Scalars := do
  let taux ← reduced p.taux
  let mu ← reduced p.mu
  let a ← reduced p.a
  let b ← reduced p.b
  let t ← reduced p.t
  if p.V.length < 1 then none else if p.L.length ≠ p.R.length then none else if p.L.length = 0 then none else some ⟨taux, mu, a, b, t⟩

/-- bulletproof.py 3459-3620: the second loop, for one proof with weights `wy`, `wz`. -/
def verifyStep (H : Bytes → Bytes) (single : Bool) (p : Proof) (s : Scalars) (wy wz : Int) (g : Agg) : Option Agg :=
  let lgM := logM p.V.length
  let M := 2 ^ lgM
  if p.L.length ≠ 6 + lgM then none else
  let MN := M * 64
  let cache := hashVct H p.V
  let y := mash H cache [p.A, p.S]
  if y = 0 then none else
  let z := hs H (encodeInt y)
  if z = 0 then none else
  let x := mash H z [encodeInt z, p.T1, p.T2]
  if x = 0 then none else
  let xip := mash H x [encodeInt x, p.taux, p.mu, p.t]
  if xip = 0 then none else
  let y0 := scMulsub s.taux wy g.y0
  let ip1y := powerSum y MN
  let k := kLoop z M 1 (scMulsub (pw z 2) ip1y 0)
  let y1 := scMuladd (scSub s.t (scMuladd z ip1y k)) wy g.y1
  let wy8 := scMul wy 8
  let wz8 := scMul wz 8
  do
    -- `zpow` has `M + 3` entries: the IndexError for more than `M + 1` commitments
    if p.V.length > M + 1 then none else
    let e ← muex ((p.V.zipIdx.map fun v => (scMul (pw z (v.2 + 2)) wy8, v.1)) ++
      [(scMul x wy8, p.T1), (scMul (scMul x x) wy8, p.T2), (wz8, p.A), (scMul x wz8, p.S)]) ident
    let acc ← addKeys g.acc (encodePoint e)
    let ws ← roundChallenges H xip p.L p.R
    let gh := ghScalars s.a s.b y z ws
    let acc ← accGens H single gh wz MN acc
    let z4 := if single then g.z4 else subScaled (fun i => (gh i).1) wz MN g.z4
    let z5 := if single then g.z5 else subScaled (fun i => (gh i).2) wz MN g.z5
    let z1 := scMuladd s.mu wz g.z1
    let e ← muex (((ws.zip (p.L.zip p.R)).map fun w =>
      [(scMul (scMul w.1 w.1) wz8, w.2.1), (scMul (scMul (scInv w.1) (scInv w.1)) wz8, w.2.2)]).flatten) ident
    let acc ← addKeys acc (encodePoint e)
    let z3 := scMuladd (scMul (scMulsub s.a s.b s.t) xip) wz g.z3
    some ⟨z1, z3, z4, z5, y0, y1, acc⟩

/-- The second loop over the proofs with their weights. -/
def verifyLoop (H : Bytes → Bytes) (single : Bool) : List (Proof × Scalars) → List (Int × Int) → Agg → Option Agg
  | [], _, g => some g
  | (p, s) :: ps, (wy, wz) :: ws, g =>
    match verifyStep H single p s wy wz g with
    | some g => verifyLoop H single ps ws g
    | none => none
  | _ :: _, [], _ => none

/-- bulletproof.py 24 `_ONE`. -/
def one : Bytes := 1 :: List.replicate 31 0

/-- bulletproof.py 3632-3641: the generators with the aggregated scalars, when not single. -/
def genSums (H : Bytes → Bytes) (z4 z5 : List Int) : Option Ext :=
  muex (((z4.zip z5).zipIdx.map fun v => [(v.1.1, gGen H v.2), (v.1.2, hGen H v.2)]).flatten) ident

def closeGens (H : Bytes → Bytes) (single : Bool) (g : Agg) (acc : Bytes) : Option Bytes :=
  if single then some acc
  else match genSums H g.z4 g.z5 with
    | some e => addKeys acc (encodePoint e)
    | none => none

/-- bulletproof.py 3420-3645 `verify_batch(proofs, single_optim)`; `weights` are the pairs of random scalars drawn; `some ()` is `True`. -/
def verifyBatch (H : Bytes → Bytes) (proofs : List Proof) (singleOptim : Bool) (weights : List (Int × Int)) : Option Unit := do
  let ss ← proofs.mapM precheck
  let maxLength := (proofs.map fun p => p.L.length).foldl max 0
  if maxLength ≥ 32 then none else
  let maxMN := 2 ^ maxLength
  let single := decide (proofs.length = 1) && singleOptim
  let g ← verifyLoop H single (proofs.zip ss) weights
    ⟨0, 0, if single then [] else List.replicate maxMN 0, if single then [] else List.replicate maxMN 0, 0, 0, one⟩
  let check2 := encodePoint (add (smul hPt (scSub g.z3 g.y1)) (scalarmultB (scSub g.y0 g.z1)))
  let acc ← addKeys g.acc check2
  let acc ← closeGens H single g acc
  if acc ≠ one then none else some ()

/-- bulletproof.py 3417-3418 `verify`. -/
def verify (H : Bytes → Bytes) (p : Proof) (wy wz : Int) : Option Unit := verifyBatch H [p] true [(wy, wz)]

/-- ring_ct.py 74-91 `verify_bp` with `amounts` and `masks` given: the commitments are recomputed. -/
def recomputeV : List Nat → List Int → Option (List Bytes)
  | [], _ => some []
  | a :: as, m :: ms => (recomputeV as ms).map fun Vs => encodePoint (smul (genC m a) (inv8 % l)) :: Vs
  | _ :: _, [] => none
def verifyBp (H : Bytes → Bytes) (p : Proof) (amounts : List Nat) (masks : List Int) (wy wz : Int) : Option Unit :=
  if amounts = [] then verify H p wy wz
  else match recomputeV amounts masks with
    | some V => verify H { p with V := V } wy wz
    | none => none

end Verif.Bp
