import Verif.Spec.Parser

/-!
# Global motion as an AV1 decoder reads it

Sections 5.9.24 to 5.9.29 and 7.10.2.1 of the AV1 specification, written from the specification and independent of the
code.
-/

namespace Av1

namespace Hdr

open P

/-- `inverse_recenter` (5.9.29). -/
def unRecenter (r v : Nat) : Nat :=
  if v > 2 * r then v else if v % 2 = 1 then r - (v + 1) / 2 else r + v / 2

/-- The loop of `decode_subexp` (5.9.28) with at most `fuel` turns. -/
def subexpGo (numSyms : Nat) : Nat → Nat → Nat → P Nat
  | 0, _, _ => fun _ => none
  | fuel + 1, i, mk => do
    let b2 := if i = 0 then 3 else i + 2
    let a := 2 ^ b2
    if numSyms ≤ mk + 3 * a then
      let v ← ns (numSyms - mk)
      pure (v + mk)
    else
      let more ← flag
      if more then subexpGo numSyms fuel (i + 1) (mk + a)
      else
        let v ← f b2
        pure (v + mk)

/-- `decode_subexp` (5.9.28); a parameter of AV1 takes fewer than 12 turns. -/
def subexp (numSyms : Nat) : P Nat := subexpGo numSyms 64 0 0

/-- `decode_unsigned_subexp_with_ref` (5.9.27). -/
def unsignedSubexp (mx r : Nat) : P Nat := do
  let v ← subexp mx
  pure (if 2 * r ≤ mx then unRecenter r v else mx - 1 - unRecenter (mx - 1 - r) v)

/-- `decode_signed_subexp_with_ref` (5.9.26). -/
def signedSubexp (low high r : Int) : P Int := do
  let x ← unsignedSubexp (high - low).toNat (r - low).toNat
  pure (x + low)

/-- `read_global_param` (5.9.25); `prev` is `PrevGmParams[ref][idx]`. -/
def globalParam (typ idx : Nat) (hp : Bool) (prev : Int) : P Int := do
  let absBits := if idx < 2 then (if typ = 1 then (if hp then 9 else 8) else 12) else 12
  let precBits := if idx < 2 then (if typ = 1 then (if hp then 3 else 2) else 6) else 15
  let diff := 16 - precBits
  let round : Int := if idx % 3 = 2 then 2 ^ 16 else 0
  let sub : Int := if idx % 3 = 2 then 2 ^ precBits else 0
  let v ← signedSubexp (-2 ^ absBits) (2 ^ absBits + 1) (prev / 2 ^ diff - sub)
  pure (v * 2 ^ diff + round)

/-- Type of a reference: 0 identity, 1 translation, 2 rotation and zoom, 3 affine. -/
def gmType : P Nat := do
  let g ← flag
  if g then
    let rz ← flag
    if rz then pure 2
    else
      let t ← flag
      pure (if t then 1 else 3)
  else pure 0

/-- Type and parameters of one reference (5.9.24). -/
def gmRef (hp : Bool) (prev : List Int) : P (Nat × List Int) := do
  let t ← gmType
  let a ← (if t ≥ 2 then do
      let p2 ← globalParam t 2 hp (prev.getD 2 0)
      let p3 ← globalParam t 3 hp (prev.getD 3 0)
      if t = 3 then
        let p4 ← globalParam t 4 hp (prev.getD 4 0)
        let p5 ← globalParam t 5 hp (prev.getD 5 0)
        pure [p2, p3, p4, p5]
      else pure [p2, p3, -p3, p2]
    else pure [2 ^ 16, 0, 0, 2 ^ 16])
  let b ← (if t ≥ 1 then do
      let p0 ← globalParam t 0 hp (prev.getD 0 0)
      let p1 ← globalParam t 1 hp (prev.getD 1 0)
      pure [p0, p1]
    else pure [0, 0])
  pure (t, b ++ a)

/-- The references `s … s + n - 1`. -/
def gmRefs (hp : Bool) (prev : Nat → List Int) : Nat → Nat → P (List (Nat × List Int))
  | 0, _ => pure []
  | n + 1, s => do
    let x ← gmRef hp (prev s)
    let xs ← gmRefs hp prev n (s + 1)
    pure (x :: xs)

/-- `global_motion_params` (5.9.24): the seven references `LAST_FRAME … ALTREF_FRAME`. -/
def globalMotion (intra hp : Bool) (prev : Nat → List Int) : P (List (Nat × List Int)) :=
  if intra then pure (List.replicate 7 (0, [0, 0, 2 ^ 16, 0, 0, 2 ^ 16])) else gmRefs hp prev 7 1

/-- `Round2Signed` (4.7.2): rounding half away from zero. -/
def roundSigned (x : Int) (n : Nat) : Int :=
  if x ≥ 0 then (x + 2 ^ (n - 1)) / 2 ^ n else -((-x + 2 ^ (n - 1)) / 2 ^ n)

/-- `lower_mv_precision` (7.10.2.3). -/
def lower (hp force : Bool) (v : Int) : Int :=
  if hp then v
  else if force then
    let a : Int := ((v.natAbs + 3) / 8 : Nat)
    if v > 0 then a * 8 else -(a * 8)
  else if v % 2 = 0 then v else if v > 0 then v - 1 else v + 1

/-- `setup_global_mv` (7.10.2.1): the vector as (row, column) of a block at `miRow`, `miCol` of `bw` by `bh` samples
whose reference has the type and parameters given; `none` is `INTRA_FRAME`. -/
def globalMv (m : Option (Nat × List Int)) (miRow miCol bw bh : Nat) (hp force : Bool) : Int × Int :=
  let mv : Int × Int := match m with
    | none => (0, 0)
    | some (typ, p) =>
      if typ = 0 then (0, 0)
      else if typ = 1 then (p.getD 0 0 / 2 ^ 13, p.getD 1 0 / 2 ^ 13)
      else
        let x : Int := miCol * 4 + bw / 2 - 1
        let y : Int := miRow * 4 + bh / 2 - 1
        let xc := (p.getD 2 0 - 2 ^ 16) * x + p.getD 3 0 * y + p.getD 0 0
        let yc := p.getD 4 0 * x + (p.getD 5 0 - 2 ^ 16) * y + p.getD 1 0
        if hp then (roundSigned yc 13, roundSigned xc 13) else (roundSigned yc 14 * 2, roundSigned xc 14 * 2)
  (lower hp force mv.1, lower hp force mv.2)

end Hdr

end Av1
