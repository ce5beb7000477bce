import Verif.Model.Key

/-!
Signatures: xmr/crypto.py 69-107, xmr/mlsag2.py and the ring signatures and Borromean range proofs of xmr/ring_ct.py.
Exceptions are `none`. `H` is Keccak-256, a parameter; an incremental hasher is the hash of the concatenated updates.
Random scalars are arguments, in the order they are used. The multisig branches (`kLRki`, `mscout`) are not modelled: both are `None`.
-/

namespace Verif.Sig
open Verif Ed Key

/-! ## Scalars -/

/-- ec_py.py 524-525 `sc_mul`. -/
def scMul (a b : Int) : Int := a * b % l

/-- ec_py.py 533-537 `sc_mulsub`. -/
def scMulsub (a b c : Int) : Int := (c - a * b) % l

/-- ec_py.py 548-549 `sc_muladd`. -/
def scMuladd (a b c : Int) : Int := (c + a * b) % l

/-! ## Plain signatures -/

/-- crypto.py 69-86 `generate_signature`; `k` is the random nonce. -/
def genSignature (H : Bytes → Bytes) (data : Bytes) (priv k : Int) : Int × Int × Ext :=
  let pub := scalarmultB priv
  let comm := scalarmultB k
  let c := hs H (data ++ encodePoint pub ++ encodePoint comm)
  let r := scMulsub priv c k
  (c, r, pub)

/-- crypto.py 89-107 `check_signature`. -/
def checkSignature (H : Bytes → Bytes) (data : Bytes) (c r : Int) (pub : Ext) : Option Bool :=
  if !checkPoint pub then none
  else if scCheck c ≠ 0 ∨ scCheck r ≠ 0 then none
  else
    let tmp2 := add (smul pub c) (scalarmultB r)
    let tmpC := hs H (data ++ encodePoint pub ++ encodePoint tmp2)
    some (scSub tmpC c == 0)

/-! ## Ring signatures with a key image -/

/-- ring_ct.py 524-533: the optional sanity checks. `ge_frombytes_vartime_check` never raises here (C59). -/
def ringTest (H : Bytes → Bytes) (image : Ext) (pubs : List Ext) (sec : Int) (idx : Nat) : Option Unit :=
  match pubs[idx]? with
  | none => none
  | some P =>
    match pointEq (scalarmultB sec) P with
    | none => none
    | some false => none
    | some true => match pointEq (keyImage H (encodePoint P) sec) image with
      | none => none
      | some false => none
      | some true => some ()

/-- ring_ct.py 563-573, 600-610: what is hashed for one decoy (and, by the verifier, for every member). `geFrombytesCheck` has no effect. -/
def ringMember (H : Bytes → Bytes) (image P : Ext) (c r : Int) : Bytes :=
  encodePoint (add (smul P c) (scalarmultB r)) ++ encodePoint (add (smul (hp H (encodePoint P)) r) (smul image c))

/-- ring_ct.py 549-575: the loop of the signer; `i` counts up, `rs` are the random pairs of the decoys (the pair of the signer is not used). -/
def ringGenLoop (H : Bytes → Bytes) (image : Ext) (idx : Nat) (k : Int) : Nat → List Ext → List (Int × Int) → Bytes × Int → Option (Bytes × Int)
  | _, [], _, acc => some acc
  | _, _ :: _, [], _ => none
  | i, P :: pubs, (c, r) :: rs, (buff, sum) =>
    if i = idx then
      ringGenLoop H image idx k (i + 1) pubs rs
        (buff ++ (encodePoint (scalarmultB k) ++ encodePoint (smul (hp H (encodePoint P)) k)), sum)
    else ringGenLoop H image idx k (i + 1) pubs rs (buff ++ ringMember H image P c r, scAdd sum c)

/-- ring_ct.py 519-580 `generate_ring_signature`. -/
def genRing (H : Bytes → Bytes) (pre : Bytes) (image : Ext) (pubs : List Ext) (sec : Int) (idx : Nat) (test : Bool) (k : Int)
    (rs : List (Int × Int)) : Option (List (Int × Int)) :=
  match if test then ringTest H image pubs sec idx else some () with
  | none => none
  | some _ =>
    match ringGenLoop H image idx k 0 pubs rs (pre, 0) with
    | none => none
    | some (buff, sum) =>
      if idx < pubs.length then
        let h := hs H buff
        let c := scSub h sum
        some ((rs.take pubs.length).set idx (c, scMulsub c sec k))
      else none

/-- ring_ct.py 596-612: the loop of the verifier; `some none` is the early `return False`. -/
def ringCheckLoop (H : Bytes → Bytes) (image : Ext) : List Ext → List (Int × Int) → Bytes × Int → Option (Option (Bytes × Int))
  | [], _, acc => some (some acc)
  | _ :: _, [], _ => none
  | P :: pubs, (c, r) :: sig, (buff, sum) =>
    if scCheck c ≠ 0 ∨ scCheck r ≠ 0 then some none
    else ringCheckLoop H image pubs sig (buff ++ ringMember H image P c r, scAdd sum c)

/-- ring_ct.py 583-616 `check_ring_singature`. -/
def checkRing (H : Bytes → Bytes) (pre : Bytes) (image : Ext) (pubs : List Ext) (sig : List (Int × Int)) : Option Bool :=
  match ringCheckLoop H image pubs sig (pre, 0) with
  | none => none
  | some none => some false
  | some (some (buff, sum)) => some (scSub (hs H buff) sum == 0)

/-- ring_ct.py 619-644 `export_key_image`. -/
def exportKeyImage (H : Bytes → Bytes) (a b : Int) (t : Table) (pkey txPub : Ext) (additional : List Ext) (outIdx : Nat) (test verify : Bool)
    (k : Int) (rs : List (Int × Int)) : Option (Ext × List (Int × Int)) :=
  match kiHelper H a b t pkey txPub additional outIdx with
  | none => none
  | some (xi, ki, _) =>
    match genRing H (encodePoint ki) ki [pkey] xi 0 test k rs with
    | none => none
    | some sig =>
      if verify then
        match checkRing H (encodePoint ki) ki [pkey] sig with
        | some true => some (ki, sig)
        | _ => none
      else some (ki, sig)

/-! ## The loop around a ring -/

/-- mlsag2.py 323-355 (`gen_mlsag_ext`) and 733-777 (`_generate_clsag`): `while i != index`, with `i` going round modulo the size of the ring
and the challenge at position 0 remembered. The fuel is the size of the ring. -/
def ringLoop (step : Nat → Int → Option Int) (n idx : Nat) : Nat → Nat → Int → Int → Option (Int × Int)
  | 0, _, _, _ => none
  | fuel + 1, i, c, cc =>
    if i = idx then some (c, cc)
    else match step i c with
      | none => none
      | some c' =>
        let i' := (i + 1) % n
        ringLoop step n idx fuel i' c' (if i' = 0 then c' else cc)

/-- The loop of the verifiers: `while i < cols` (mlsag2.py 415-437, 822-850). -/
def chainLoop (step : Nat → Int → Option Int) : Nat → Nat → Int → Option Int
  | 0, _, c => some c
  | k + 1, i, c => match step i c with
    | none => none
    | some c' => chainLoop step k (i + 1) c'

/-! ## MLSAG -/

structure MgSig where
  ss : List (List Int)
  cc : Int
  II : List Ext
deriving DecidableEq

/-- mlsag2.py 328-337, 418-427: double spend rows of one column. -/
def dsPart (H : Bytes → Bytes) (c : Int) : List Ext → List Int → List Ext → Bytes
  | P :: ps, s :: ss, I :: is =>
    encodePoint P ++ encodePoint (addKeys2 s c P) ++ encodePoint (addKeys3 s (hp H (encodePoint P)) c I) ++ dsPart H c ps ss is
  | _, _, _ => []

/-- mlsag2.py 339-342, 429-432: the other rows of one column. -/
def plainPart (c : Int) : List Ext → List Int → Bytes
  | P :: ps, s :: ss => encodePoint P ++ encodePoint (addKeys2 s c P) ++ plainPart c ps ss
  | _, _ => []

/-- mlsag2.py 325-345, 416-434: the next challenge of a column. -/
def column (H : Bytes → Bytes) (message : Bytes) (ds : Nat) (II : List Ext) (pk : List Ext) (s : List Int) (c : Int) : Int :=
  hs H (message ++ dsPart H c (pk.take ds) (s.take ds) II ++ plainPart c (pk.drop ds) (s.drop ds))

/-- The body of both loops. -/
def colStep (H : Bytes → Bytes) (message : Bytes) (ds : Nat) (II : List Ext) (pk : List (List Ext)) (ss : List (List Int)) (i : Nat) (c : Int) :
    Option Int :=
  match pk[i]?, ss[i]? with
  | some col, some s => some (column H message ds II col s c)
  | _, _ => none

/-- mlsag2.py 259-276: the double spend rows of the signer's column; the key images. -/
def secretDs (H : Bytes → Bytes) : List Ext → List Int → List Int → Bytes × List Ext
  | P :: ps, x :: xs, al :: als =>
    let Hi := hp H (encodePoint P)
    let r := secretDs H ps xs als
    (encodePoint P ++ encodePoint (scalarmultB al) ++ encodePoint (smul Hi al) ++ r.1, smul Hi x :: r.2)
  | _, _, _ => ([], [])

/-- mlsag2.py 278-282. -/
def secretPlain : List Ext → List Int → Bytes
  | P :: ps, al :: als => encodePoint P ++ encodePoint (scalarmultB al) ++ secretPlain ps als
  | _, _ => []

/-- mlsag2.py 208-239 `gen_mlsag_assert`: rows and columns. -/
def mlsagAssert (pk : List (List Ext)) (xx : List Int) (idx ds : Nat) : Option (Nat × Nat) :=
  let cols := pk.length
  if cols ≤ 1 then none else if idx ≥ cols then none
  else
    let rows := (pk.headD []).length
    if rows = 0 then none
    else if pk.any fun c => c.length ≠ rows then none
    else if xx.length ≠ rows then none
    else if ds > rows then none
    else some (rows, cols)

/-- mlsag2.py 351-354: `alpha[j] - c * xx[j]`. -/
def closing (c : Int) : List Int → List Int → List Int
  | x :: xs, al :: als => scMulsub c x al :: closing c xs als
  | _, _ => []

/-- mlsag2.py 290-359 `gen_mlsag_ext` with 242-287 `gen_mlsag_rows`: the signature and the last challenge. `alpha` and `rnd` are random
(`rnd[i]` for the columns other than the signer's). Two columns at least, so the loop runs and `c` is the last `c_old`. -/
def genMlsag (H : Bytes → Bytes) (message : Bytes) (pk : List (List Ext)) (xx : List Int) (idx ds : Nat) (alpha : List Int)
    (rnd : List (List Int)) : Option (MgSig × Int) :=
  match mlsagAssert pk xx idx ds with
  | none => none
  | some (_, cols) =>
    match pk[idx]? with
    | none => none
    | some col =>
      let sd := secretDs H (col.take ds) (xx.take ds) (alpha.take ds)
      let c0 := hs H (message ++ sd.1 ++ secretPlain (col.drop ds) (alpha.drop ds))
      let i0 := (idx + 1) % cols
      match ringLoop (colStep H message ds sd.2 pk rnd) cols idx cols i0 c0 (if i0 = 0 then c0 else 0) with
      | none => none
      | some (c, cc) => some (⟨rnd.set idx (closing c xx alpha), cc, sd.2⟩, c)

/-- mlsag2.py 362-392 `ver_mlsag_assert`. -/
def verMlsagAssert (pk : List (List Ext)) (rv : MgSig) (ds : Nat) : Option (Nat × Nat) :=
  let cols := pk.length
  if cols < 2 then none
  else
    let rows := (pk.headD []).length
    if rows = 0 then none
    else if pk.any fun c => c.length ≠ rows then none
    else if rv.II.length ≠ ds then none
    else if rv.ss.length ≠ cols then none
    else if rv.ss.any fun s => s.length ≠ rows then none
    else if ds > rows then none
    else some (rows, cols)

/-- mlsag2.py 395-441 `ver_mlsag_ext`. -/
def verMlsag (H : Bytes → Bytes) (message : Bytes) (pk : List (List Ext)) (rv : MgSig) (ds : Nat) : Option Bool :=
  match verMlsagAssert pk rv ds with
  | none => none
  | some (_, cols) =>
    match chainLoop (colStep H message ds rv.II pk rv.ss) cols 0 rv.cc with
    | none => none
    | some c => some (scSub c rv.cc == 0)

/-- `CtKey` with encoded points: destination and commitment. -/
structure CtPub where
  dest : Bytes
  commitment : Bytes
deriving DecidableEq

/-- `CtKey` with secrets: destination and mask. -/
structure CtSec where
  dest : Int
  mask : Int
deriving DecidableEq

/-- mlsag2.py 542-545, 609-611: the two rows of the simple variant. -/
def simpleMatrix (cout : Ext) : List CtPub → Option (List (List Ext))
  | [] => some []
  | p :: ps =>
    match decodePoint p.dest, decodePoint p.commitment, simpleMatrix cout ps with
    | some d, some c, some m => some ([d, sub c cout] :: m)
    | _, _, _ => none

/-- mlsag2.py 512-547 `prove_rct_mg_simple`. -/
def proveMgSimple (H : Bytes → Bytes) (message : Bytes) (pubs : List CtPub) (inSk : CtSec) (a : Int) (cout : Ext) (idx : Nat)
    (alpha : List Int) (rnd : List (List Int)) : Option (MgSig × Int) :=
  if pubs.length = 0 then none
  else match simpleMatrix cout pubs with
    | none => none
    | some M => genMlsag H message M [inSk.dest, scSub inSk.mask a] idx 1 alpha rnd

/-- mlsag2.py 594-613 `ver_rct_mg_simple`. -/
def verMgSimple (H : Bytes → Bytes) (message : Bytes) (mg : MgSig) (pubs : List CtPub) (cout : Ext) : Option Bool :=
  if pubs.length = 0 then none
  else match simpleMatrix cout pubs with
    | none => none
    | some M => verMlsag H message M mg 1

/-- mlsag2.py 487-492, 574-580: decoded destinations of one column, followed by the sum of its commitments so far. -/
def fullColumn (acc : Ext) : List CtPub → Option (List Ext × Ext)
  | [] => some ([], acc)
  | p :: ps =>
    match decodePoint p.dest, decodePoint p.commitment with
    | some d, some c => (fullColumn (add acc c) ps).map fun r => (d :: r.1, r.2)
    | _, _ => none

/-- mlsag2.py 499-507, 582-589: the output commitments and the fee are subtracted. -/
def subOuts (acc : Ext) : List Bytes → Option Ext
  | [] => some acc
  | o :: os => match decodePoint o with
    | none => none
    | some c => subOuts (sub acc c) os

def fullMatrix (outPk : List Bytes) (feeKey : Ext) : List (List CtPub) → Option (List (List Ext))
  | [] => some []
  | col :: cols =>
    match fullColumn ident col with
    | none => none
    | some (ds, s) => match subOuts s outPk, fullMatrix outPk feeKey cols with
      | some s', some m => some ((ds ++ [sub s' feeKey]) :: m)
      | _, _ => none

/-- mlsag2.py 444-510 `prove_rct_mg`; of the output keys only the masks are used. -/
def proveMg (H : Bytes → Bytes) (message : Bytes) (pubs : List (List CtPub)) (inSk : List CtSec) (outMasks : List Int) (outPk : List Bytes)
    (idx : Nat) (feeKey : Ext) (alpha : List Int) (rnd : List (List Int)) : Option (MgSig × Int) :=
  let rows := (pubs.headD []).length
  if pubs.length = 0 then none else if rows = 0 then none
  else if pubs.any fun c => c.length ≠ rows then none
  else if inSk.length ≠ rows then none
  else if outMasks.length ≠ outPk.length then none
  else match fullMatrix outPk feeKey pubs with
    | none => none
    | some M =>
      let z := outMasks.foldl (fun s m => scSub s m) (inSk.foldl (fun s k => scAdd s k.mask) 0)
      genMlsag H message M (inSk.map (·.dest) ++ [z]) idx rows alpha rnd

/-- mlsag2.py 550-591 `ver_rct_mg`. -/
def verMg (H : Bytes → Bytes) (mg : MgSig) (pubs : List (List CtPub)) (outPk : List Bytes) (feeKey : Ext) (message : Bytes) : Option Bool :=
  let rows := (pubs.headD []).length
  if pubs.length = 0 then none else if rows = 0 then none
  else if pubs.any fun c => c.length ≠ rows then none
  else match fullMatrix outPk feeKey pubs with
    | none => none
    | some M => verMlsag H message M mg rows

/-- The signing step of the device, tsx_sign_builder.py 1599-1641 `sign_input`: checks that the keys open the ring member at the real
position, signs, and (in debug mode) verifies. `amount` is the amount of the source, `alpha`, `cout` the pseudo output mask and commitment. -/
def deviceSign (H : Bytes → Bytes) (message : Bytes) (ring : List CtPub) (inSk : CtSec) (amount : Int) (pseudoMask : Int) (cout : Ext)
    (idx : Nat) (alpha : List Int) (rnd : List (List Int)) : Option MgSig :=
  match ring[idx]? with
  | none => none
  | some real =>
    match decodePoint real.dest, decodePoint real.commitment with
    | some d, some c =>
      if pointEq d (scalarmultB inSk.dest) ≠ some true then none
      else if pointEq c (genC inSk.mask amount) ≠ some true then none
      else match proveMgSimple H message ring inSk pseudoMask cout idx alpha rnd with
        | none => none
        | some (mg, _) =>
          match verMgSimple H message mg ring cout with
          | some true => some mg
          | _ => none
    | _, _ => none

/-! ## CLSAG -/

/-- mlsag2.py 23-25. -/
def pad32 (s : List UInt8) : Bytes := s ++ List.replicate (32 - s.length) 0
def kRound : Bytes := pad32 "CLSAG_round".toUTF8.toList
def kAgg0 : Bytes := pad32 "CLSAG_agg_0".toUTF8.toList
def kAgg1 : Bytes := pad32 "CLSAG_agg_1".toUTF8.toList

/-- mlsag2.py 697-715, 797-806: the part common to both aggregation hashes, and 716-717, 807-808 the two coefficients. -/
def aggData (ring : List CtPub) (I D Cout : Bytes) : Bytes :=
  (ring.map (·.dest)).flatten ++ (ring.map (·.commitment)).flatten ++ I ++ D ++ Cout
def muP (H : Bytes → Bytes) (ring : List CtPub) (I D Cout : Bytes) : Int := hs H (kAgg0 ++ aggData ring I D Cout)
def muC (H : Bytes → Bytes) (ring : List CtPub) (I D Cout : Bytes) : Int := hs H (kAgg1 ++ aggData ring I D Cout)

/-- mlsag2.py 720-727, 810-816 and 763-766, 844-847: the hash of one round. -/
def roundHash (H : Bytes → Bytes) (ring : List CtPub) (Cout message L R : Bytes) : Int :=
  hs H (kRound ++ (ring.map (·.dest)).flatten ++ (ring.map (·.commitment)).flatten ++ Cout ++ message ++ L ++ R)

/-- mlsag2.py 745-766, 823-847: one member of the ring. `D` is the full (not divided) image of the mask. -/
def clsagStep (H : Bytes → Bytes) (message : Bytes) (ring : List CtPub) (mP mC : Int) (I D Cout : Ext) (ss : List Int) (i : Nat) (c : Int) :
    Option Int :=
  match ring[i]?, ss[i]? with
  | some p, some s =>
    match decodePoint p.dest, decodePoint p.commitment with
    | some P, some C =>
      let cp := scMul mP c
      let cc := scMul mC c
      let L := add (addKeys2 s cp P) (smul (sub C Cout) cc)
      let R := add (addKeys3 s (hp H p.dest) cp I) (smul D cc)
      some (roundHash H ring (encodePoint Cout) message (encodePoint L) (encodePoint R))
    | _, _ => none
  | _, _ => none

/-- mlsag2.py 616-656 `generate_clsag_simple`, 659-786 `_generate_clsag`: the list `mg_buff` (initially empty): varint length, scalars,
first challenge, divided mask image. `a` and `rnd` are random. -/
def genClsag (H : Bytes → Bytes) (message : Bytes) (ring : List CtPub) (inSk : CtSec) (mask : Int) (Cout : Ext) (idx : Nat) (a : Int)
    (rnd : List Int) : Option (List Bytes) :=
  let n := ring.length
  if n = 0 then none
  else
    let p := inSk.dest
    let z := scSub inSk.mask mask
    match ring[idx]?, decodeScalar invEight with
    | some real, some i8 =>
      let Hp := hp H real.dest
      let I := smul Hp p
      let D := smul Hp z
      let sD := encodePoint (smul Hp (scMul z i8))
      let mP := muP H ring (encodePoint I) sD (encodePoint Cout)
      let mC := muC H ring (encodePoint I) sD (encodePoint Cout)
      let c0 := roundHash H ring (encodePoint Cout) message (encodePoint (scalarmultB a)) (encodePoint (smul Hp a))
      let i0 := (idx + 1) % n
      match ringLoop (clsagStep H message ring mP mC I D Cout rnd) n idx n i0 c0 (if i0 = 0 then c0 else 0) with
      | none => none
      | some (c, c1) =>
        let s := scMulsub c (scMuladd mC z (scMul mP p)) a
        some ([Varint.dumpNat n] ++ ((rnd.take n).set idx s).map encodeInt ++ [encodeInt c1, sD])
    | _, _ => none

/-- mlsag2.py 789-854 `verify_clsag`: returns nothing or raises. -/
def verClsag (H : Bytes → Bytes) (message : Bytes) (ss : List Int) (c1 : Int) (I sD : Ext) (ring : List CtPub) (Cout : Ext) : Option Unit :=
  let D8 := mul8 sD
  let mP := muP H ring (encodePoint I) (encodePoint sD) (encodePoint Cout)
  let mC := muC H ring (encodePoint I) (encodePoint sD) (encodePoint Cout)
  match chainLoop (clsagStep H message ring mP mC I D8 Cout ss) ring.length 0 c1 with
  | none => none
  | some c => if scSub c c1 = 0 then some () else none

/-! ## Borromean range proofs -/

/-- The random scalars used for one bit: mask, nonce `alpha` and the two forged answers. -/
structure BitRnd where
  ai : Int
  alpha : Int
  s0 : Int
  s1 : Int

/-- ring_ct.py 17-24 `d2b`: binary digits, `IndexError` when they do not fit. -/
def d2bLoop : Nat → Nat → Option (List Nat)
  | 0, n => if n = 0 then some [] else none
  | digits + 1, n => (d2bLoop digits (n / 2)).map fun r => n % 2 :: r
def d2b (n digits : Nat) : Option (List Nat) := d2bLoop digits n

/-- crypto.py 42-51 `gen_Hpow`: powers of `H` by repeated `point_double` (`P + P` with the addition formula). -/
def hPow : Nat → Ext → List Ext
  | 0, _ => []
  | n + 1, P => P :: hPow n (add P P)

/-- mlsag2.py 136-149: what is hashed for one bit in the first loop. -/
def boroFirst (H : Bytes → Bytes) (P2 : Ext) (bit : Nat) (r : BitRnd) : Bytes :=
  let L := scalarmultB r.alpha
  if bit = 0 then encodePoint (addKeys2 r.s1 (hs H (encodePoint L)) P2) else encodePoint L

/-- mlsag2.py 156-163: the two answers of one bit. -/
def boroSecond (H : Bytes → Bytes) (ee x : Int) (P1 : Ext) (bit : Nat) (r : BitRnd) : Int × Int :=
  if bit = 0 then (scMulsub x ee r.alpha, r.s1)
  else
    let LL := addKeys2 r.s0 ee P1
    let cc := hs H (encodePoint LL)
    (r.s0, scMulsub x cc r.alpha)

structure BoroSig where
  s0 : List Int
  s1 : List Int
  ee : Int
deriving DecidableEq

/-- One bit of the input of `gen_borromean`. -/
structure BitIn where
  x : Int
  P1 : Ext
  P2 : Ext
  bit : Nat
  rnd : BitRnd

/-- mlsag2.py 129-165 `gen_borromean`. -/
def genBorromean (H : Bytes → Bytes) (ins : List BitIn) : BoroSig :=
  let ee := hs H (ins.map fun b => boroFirst H b.P2 b.bit b.rnd).flatten
  let out := ins.map fun b => boroSecond H ee b.x b.P1 b.bit b.rnd
  ⟨out.map (·.1), out.map (·.2), ee⟩

/-- mlsag2.py 179-183: one bit of the verifier. -/
def boroCheck (H : Bytes → Bytes) (ee : Int) : List Ext → List Ext → List Int → List Int → Option Bytes
  | [], _, _, _ => some []
  | P1 :: p1, P2 :: p2, s0 :: t0, s1 :: t1 =>
    let LL := addKeys2 s0 ee P1
    let chash := hs H (encodePoint LL)
    (boroCheck H ee p1 p2 t0 t1).map fun r => encodePoint (addKeys2 s1 chash P2) ++ r
  | _, _, _, _ => none

/-- mlsag2.py 168-192 `ver_borromean`. -/
def verBorromean (H : Bytes → Bytes) (P1 P2 : List Ext) (s0 s1 : List Int) (ee : Int) : Option Bool :=
  (boroCheck H ee P1 P2 s0 s1).map fun b => hs H b == ee

/-- ring_ct.py 130-131, 277-279, 331-333: the mask of one bit; in the last position it makes the sum equal to `last_mask`. -/
def pickMask (last : Option Int) (final : Bool) (a r : Int) : Int :=
  match last with
  | some m => if final then scSub m a else r
  | none => r

/-- ring_ct.py 276-283, 330-337: the masks; the last one makes the sum equal to `last_mask`. -/
def masks (last : Option Int) : List Int → Int → List Int × Int
  | [], a => ([], a)
  | r :: rs, a =>
    let ai := pickMask last rs.isEmpty a r
    let rest := masks last rs (scAdd a ai)
    (ai :: rest.1, rest.2)

/-- ring_ct.py 284-288: the commitment to one bit. -/
def bitCommit (ai : Int) (bit : Nat) (H2 : Ext) : Ext := if bit = 0 then scalarmultB ai else add (scalarmultB ai) H2

/-- ring_ct.py 276-288: inputs of the Borromean signature. -/
def bitIns : List Int → List Nat → List Ext → List BitRnd → List BitIn
  | ai :: as, b :: bs, H2 :: hs, r :: rs =>
    let Ci := bitCommit ai b H2
    ⟨ai, Ci, sub Ci H2, b, r⟩ :: bitIns as bs hs rs
  | _, _, _, _ => []

structure RangeSig where
  asig : BoroSig
  Ci : List Ext

/-- ring_ct.py 255-298 `prove_range_orig`: commitment, mask, signature; `rnd` has 64 entries. -/
def proveRangeOrig (H : Bytes → Bytes) (amount : Nat) (last : Option Int) (rnd : List BitRnd) : Option (Ext × Int × RangeSig) :=
  match d2b amount 64 with
  | none => none
  | some bb =>
    let m := masks last (rnd.map (·.ai)) 0
    let ins := bitIns m.1 bb (hPow 64 hPt) rnd
    let Ci := ins.map (·.P1)
    some (Ci.foldl add ident, m.2, ⟨genBorromean H ins, Ci⟩)

/-- State of the first pass of `prove_range_mem`. -/
structure MemSt where
  a : Int
  C : Ext
  cH : Ext
  kck : Bytes
  ai : List Int
  Ci : List Ext

/-- ring_ct.py 330-357: first pass of `prove_range_mem`, lists grow at the end. -/
def memFirst (H : Bytes → Bytes) (last : Option Int) : List Nat → List BitRnd → MemSt → MemSt
  | b :: bs, r :: rs, st =>
    let ai := pickMask last rs.isEmpty st.a r.ai
    let a := scAdd st.a ai
    let L := scalarmultB r.alpha
    let Ci := if b = 0 then scalarmultB ai else add (scalarmultB ai) st.cH
    let C := add st.C Ci
    let kck := if b = 0 then st.kck ++ encodePoint (addKeys2 r.s1 (hs H (encodePoint L)) (sub Ci st.cH)) else st.kck ++ encodePoint L
    memFirst H last bs rs ⟨a, C, add st.cH st.cH, kck, st.ai ++ [ai], st.Ci ++ [Ci]⟩
  | _, _, st => st

/-- ring_ct.py 367-376: second pass. -/
def memSecond (H : Bytes → Bytes) (ee : Int) : List Nat → List Int → List Ext → List BitRnd → List (Int × Int)
  | b :: bs, ai :: as, Ci :: cs, r :: rs =>
    (if b = 0 then (scMulsub ai ee r.alpha, r.s1)
     else
      let LL := addKeys2 r.s0 ee Ci
      (r.s0, scMulsub ai (hs H (encodePoint LL)) r.alpha)) :: memSecond H ee bs as cs rs
  | _, _, _, _ => []

/-- ring_ct.py 301-385 `prove_range_mem`. -/
def proveRangeMem (H : Bytes → Bytes) (amount : Nat) (last : Option Int) (rnd : List BitRnd) : Option (Ext × Int × RangeSig) :=
  match d2b amount 64 with
  | none => none
  | some bb =>
    let st := memFirst H last bb rnd ⟨0, ident, hPt, [], [], []⟩
    let ee := hs H st.kck
    let out := memSecond H ee bb st.ai st.Ci rnd
    some (st.C, st.a, ⟨⟨out.map (·.1), out.map (·.2), ee⟩, st.Ci⟩)

/-- Encoded range signature as `prove_range_chunked` returns it (one chunk of 32 bytes per entry). -/
structure RangeBytes where
  s0 : List Bytes
  s1 : List Bytes
  ee : Bytes
  Ci : List Bytes

/-- State of the first pass of `prove_range_chunked`. -/
structure ChunkSt where
  a : Int
  C : Ext
  cH : Ext
  kck : Bytes
  ai : List Bytes
  alpha : List Bytes
  Ci : List Bytes
  s1 : List Bytes

/-- ring_ct.py 128-161: bit `ii` is `(amount >> ii) & 1`; `none` marks the chunk of `s1s` that is still zero. -/
def chunkFirst (H : Bytes → Bytes) (amount : Nat) (last : Option Int) : Nat → List BitRnd → ChunkSt → ChunkSt
  | ii, r :: rs, st =>
    let ai := pickMask last (ii == 63) st.a r.ai
    let a := scAdd st.a ai
    let L := scalarmultB r.alpha
    let Ct := add (scalarmultB ai) (if (amount >>> ii) % 2 = 0 then ident else st.cH)
    let C := add st.C Ct
    let L' := if (amount >>> ii) % 2 = 0 then addKeys2 r.s1 (hs H (encodePoint L)) (sub Ct st.cH) else L
    let s1 := if (amount >>> ii) % 2 = 0 then encodeInt r.s1 else List.replicate 32 0
    chunkFirst H amount last (ii + 1) rs
      ⟨a, C, add st.cH st.cH, st.kck ++ encodePoint L', st.ai ++ [encodeInt ai], st.alpha ++ [encodeInt r.alpha], st.Ci ++ [encodePoint Ct],
       st.s1 ++ [s1]⟩
  | _, [], st => st

/-- ring_ct.py 172-192. -/
def chunkSecond (H : Bytes → Bytes) (amount : Nat) (ee : Int) : Nat → List Bytes → List Bytes → List Bytes → List Bytes → List BitRnd →
    Option (List (Bytes × Bytes))
  | ii, ai :: as, al :: als, Ci :: cs, s1 :: s1s, r :: rs =>
    match decodeScalar al, decodeScalar ai, chunkSecond H amount ee (ii + 1) as als cs s1s rs with
    | some alpha, some a, some rest =>
      if (amount >>> ii) % 2 = 0 then some ((encodeInt (scMulsub a ee alpha), s1) :: rest)
      else match decodePoint Ci with
        | none => none
        | some C =>
          let L := addKeys2 r.s0 ee C
          some ((encodeInt r.s0, encodeInt (scMulsub a (hs H (encodePoint L)) alpha)) :: rest)
    | _, _, _ => none
  | _, _, _, _, _, _ => some []

/-- ring_ct.py 104-199 `prove_range_chunked`. -/
def proveRangeChunked (H : Bytes → Bytes) (amount : Nat) (last : Option Int) (rnd : List BitRnd) : Option (Ext × Int × RangeBytes) :=
  let st := chunkFirst H amount last 0 rnd ⟨0, ident, hPt, [], [], [], [], []⟩
  let ee := hs H st.kck
  (chunkSecond H amount ee 0 st.ai st.alpha st.Ci st.s1 rnd).map fun out =>
    (st.C, st.a, ⟨out.map (·.1), out.map (·.2), encodeInt ee, st.Ci⟩)

/-- ring_ct.py 406-409: `Ci - 2^i H` and the sum of the commitments. -/
def verSums : List Ext → List Ext → Ext → List Ext × Ext
  | C :: cs, h :: hs, acc => let r := verSums cs hs (add acc C); (sub C h :: r.1, r.2)
  | _, _, acc => ([], acc)

/-- ring_ct.py 388-418 `ver_range` for a decoded Borromean proof; fewer than 64 commitments raise `IndexError`, and only the first 64 get a
`CiH` (more raise in the verifier). -/
def verRange (H : Bytes → Bytes) (C : Option Ext) (rsig : RangeSig) : Option Bool :=
  if rsig.Ci.length < 64 then none
  else
    let r := verSums rsig.Ci (hPow 64 hPt) ident
    match (match C with
      | none => some true
      | some C => pointEq r.2 C) with
    | none => none
    | some false => some false
    | some true => verBorromean H rsig.Ci r.1 rsig.asig.s0 rsig.asig.s1 rsig.asig.ee

/-- sub/recode_ext.py 6-31 `recode_rangesig` with `encode=True`, then with `encode=False, copy=True`. -/
def encodeRangeSig (r : RangeSig) : RangeBytes :=
  ⟨r.asig.s0.map encodeInt, r.asig.s1.map encodeInt, encodeInt r.asig.ee, r.Ci.map encodePoint⟩
def decodeRangeSig (r : RangeBytes) : Option RangeSig :=
  match r.s0.mapM decodeScalar, r.s1.mapM decodeScalar, decodeScalar r.ee, r.Ci.mapM decodePoint with
  | some s0, some s1, some ee, some Ci => some ⟨⟨s0, s1, ee⟩, Ci⟩
  | _, _, _, _ => none

/-- sub/recode_ext.py 34-49 `flatten_rsig`. -/
def flattenRsig (r : RangeBytes) : Bytes := r.s0.flatten ++ r.s1.flatten ++ r.ee ++ r.Ci.flatten

/-- Cutting `n` pieces of 32 bytes off the front. -/
def cut : Nat → Bytes → List Bytes × Bytes
  | 0, b => ([], b)
  | n + 1, b => let r := cut n (b.drop 32); (b.take 32 :: r.1, r.2)

/-- sub/recode_ext.py 52-74 `inflate_rsig`. -/
def inflateRsig (b : Bytes) : RangeBytes :=
  let s0 := cut 64 b
  let s1 := cut 64 s0.2
  let ee := cut 1 s1.2
  let Ci := cut 64 ee.2
  ⟨s0.1, s1.1, ee.1.headD [], Ci.1⟩

end Verif.Sig
