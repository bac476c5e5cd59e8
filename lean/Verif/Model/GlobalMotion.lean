import Verif.Model.FrameHeader
import Verif.Model.Common

/-!
# `src/obu_encoder.rs` 1190–1300: global motion parameters, and `setup_global_mv` of `src/tile_encoder.rs`

Arithmetic is on `isize` / `usize`.  An `isize` is turned into a `usize` by `as`, which wraps (`asUsize`).
-/

namespace Av1

/-- `as usize` of an `isize`. -/
def asUsize (v : Int) : Nat := (v % 2 ^ 64).toNat

/-- `inverse_recenter` (1232–1240).  `2*r` panics when it overflows. -/
def inverseRecenter (r v : Nat) : Option Nat :=
  if 2 * r ≥ 2 ^ 64 then none
  else if v > 2 * r then some v
  else if v % 2 > 0 then usub r ((v + 1) >>> 1)
  else some (r + (v >>> 1))

/-- The loop of `encode_subexp` (1241–1266), `k = 3`.  `fuel` bounds the number of turns; `a` doubles each turn, so
64 turns are enough for every `usize`. -/
def subexpGo (numSyms tv : Nat) : Nat → Nat → Nat → Option Raw
  | 0, _, _ => none
  | fuel + 1, i, mk =>
    let b2 := if i > 0 then 3 + i - 1 else 3
    let a := 1 <<< b2
    if numSyms ≤ mk + 3 * a then do
      let d ← usub tv mk
      let n ← usub numSyms mk
      pushNs d n
    else if tv ≤ mk + (1 <<< b2) - 1 then do
      let d ← usub tv mk
      cat [pushU 0, pushN d b2]
    else cat [pushU 1, subexpGo numSyms tv fuel (i + 1) (mk + a)]

/-- `encode_subexp` (1241–1266). -/
def encodeSubexp (v numSyms : Nat) : Option Raw := subexpGo numSyms v 64 0 0

/-- `encode_unsigned_subexp_with_ref` (1267–1276).  `r<<1` drops the top bit. -/
def encodeUnsignedSubexp (v mx r : Nat) : Option Raw :=
  if (r <<< 1) % 2 ^ 64 ≤ mx then do
    let tv ← inverseRecenter r v
    encodeSubexp tv mx
  else do
    let m1 ← usub mx 1
    let tv ← usub m1 v
    let q ← usub m1 r
    let tv ← inverseRecenter q tv
    encodeSubexp tv q

/-- `encode_signed_subexp_with_ref` (1277–1280). -/
def encodeSignedSubexp (v low high r : Int) : Option Raw :=
  encodeUnsignedSubexp (asUsize (v - low)) (asUsize (high - low)) (asUsize (r - low))

/-- `abs_bits`, `prec_bits` (1214–1224). -/
def gmBits (typ idx : Nat) (hp : Bool) : Nat × Nat :=
  if idx < 2 then
    if typ = 1 then (9 - (!hp).toNat, 3 - (!hp).toNat) else (12, 6)
  else (12, 15)

/-- `encode_global_param` (1213–1282); `params`, `prev` are `gm_params[rf]`, `prev_gm_params[rf]`. -/
def encodeGlobalParam (typ idx : Nat) (hp : Bool) (params prev : List Int) : Option Raw := do
  let (absBits, precBits) := gmBits typ idx hp
  let precDiff := 16 - precBits
  let round : Int := if idx % 3 = 2 then 2 ^ 16 else 0
  let sub : Int := if idx % 3 = 2 then 2 ^ precBits else 0
  let mx : Int := 2 ^ absBits
  let p ← prev[idx]?
  let g ← params[idx]?
  encodeSignedSubexp ((g - round) >>> precDiff) (-mx) (mx + 1) ((p >>> precDiff) - sub)

/-- `GlobalMotionParams` of one reference (frame.rs 75–79). -/
structure GmFlags where
  isGlobal : Bool
  isRotZoom : Bool
  isTranslation : Bool
deriving Repr, DecidableEq

/-- `typ` (1202–1211): `IDENTITY` 0, `TRANSLATION` 1, `ROTZOOM` 2, `AFFINE` 3 (constants.rs 390–393). -/
def GmFlags.typ (f : GmFlags) : Nat :=
  if f.isGlobal then if f.isRotZoom then 2 else if f.isTranslation then 1 else 3 else 0

/-- The default `gm_params[rf]` (1193–1195). -/
def gmIdentity : List Int := [0, 0, 2 ^ 16, 0, 0, 2 ^ 16]

/-- `gm_params[rf]` after the parameters 2 to 5 (1284–1294). -/
def gmParamsAfter (typ : Nat) (params : List Int) : List Int :=
  if typ = 2 then (params.set 4 (-params.getD 3 0)).set 5 (-params.getD 2 0) else params

/-- One reference (1199–1299), from the parameters just reset: the bits. -/
def encodeGlobalRef (f : GmFlags) (hp : Bool) (prev : List Int) : Option Raw :=
  let typ := f.typ
  let g := gmIdentity
  let after := gmParamsAfter typ g
  cat [pushB f.isGlobal,
    if f.isGlobal then cat [pushB f.isRotZoom, if f.isRotZoom then cat [] else pushB f.isTranslation] else cat [],
    if typ ≥ 2 then
      cat [encodeGlobalParam typ 2 hp g prev, encodeGlobalParam typ 3 hp g prev,
        if typ = 3 then cat [encodeGlobalParam typ 4 hp g prev, encodeGlobalParam typ 5 hp g prev] else cat []]
    else cat [],
    if typ ≥ 1 then cat [encodeGlobalParam typ 0 hp after prev, encodeGlobalParam typ 1 hp after prev] else cat []]

/-- What global motion reads: the frame's flags, and from the context the type, the parameters and the previous
parameters of each reference (arrays of `NUM_REF_FRAMES = 8`, encoder.rs 29–31). -/
structure Gm where
  flags : List GmFlags
  types : List Nat
  params : List (List Int)
  prev : List (List Int)
deriving Repr, DecidableEq

/-- Global motion parameters (1190–1300); the loops run over `LAST_FRAME..ALTREF_FRAME`, which is 1 to 6. -/
def encodeGlobalMotion (g : Gm) (intra hp : Bool) : Option Raw :=
  if intra then cat []
  else cat ((List.range' 1 6).map fun rf => do
    let f ← g.flags[rf]?
    let p ← g.prev[rf]?
    encodeGlobalRef f hp p)

/-- What global motion leaves in `gm_type` and `gm_params`; the flags are arrays of eight. -/
def gmAfter (g : Gm) (intra : Bool) : Gm :=
  let typ (rf : Nat) : Nat := if intra then 0 else (g.flags.getD rf ⟨false, false, false⟩).typ
  { g with
    types := g.types.mapIdx fun rf t => if 1 ≤ rf ∧ rf ≤ 6 then typ rf else t
    params := g.params.mapIdx fun rf p => if 1 ≤ rf ∧ rf ≤ 6 then gmParamsAfter (typ rf) gmIdentity else p }

/-! ## `setup_global_mv` (tile_encoder.rs 895–953) -/

/-- `setup_global_mv`: `ref` is `part_tree.ref_frame[ref_list]` (`INTRA_FRAME` 0; a negative one panics as an index).
The frame is small enough for the sums not to overflow. -/
def setupGlobalMv (g : Gm) (ref : Int) (miRow miCol bw bh : Nat) (hp force : Bool) : Option Mv := do
  let typ ← (if ref ≠ 0 then (if ref < 0 then none else g.types[ref.toNat]?) else some 0)
  let mv ← (if ref = 0 ∨ typ = 0 then some (⟨0, 0⟩ : Mv)
    else do
      let p ← g.params[ref.toNat]?
      let p0 ← p[0]?
      let p1 ← p[1]?
      if typ = 1 then some ⟨p0 >>> (16 - 3), p1 >>> (16 - 3)⟩
      else do
        let p2 ← p[2]?
        let p3 ← p[3]?
        let p4 ← p[4]?
        let p5 ← p[5]?
        let x : Int := miCol * 4 + bw / 2 - 1
        let y : Int := miRow * 4 + bh / 2 - 1
        let xc := (p2 - 2 ^ 16) * x + p3 * y + p0
        let yc := p4 * x + (p5 - 2 ^ 16) * y + p1
        if hp then some ⟨round2Signed xc 13, round2Signed yc 13⟩
        else some ⟨round2Signed xc 14 * 2, round2Signed yc 14 * 2⟩)
  some ⟨lowerMvPrecision force mv.x, lowerMvPrecision force mv.y⟩

end Av1
