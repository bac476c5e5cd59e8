import Verif.Spec.Parser

/-!
# Film grain parameters as an AV1 decoder reads them

Section 5.9.30 of the AV1 specification, written from the specification and independent of the code.
-/

namespace Av1

namespace Hdr

open P

structure GrainParams where
  /-- value and scaling of each point -/
  y : List (Nat × Nat)
  fromLuma : Bool
  cb : List (Nat × Nat)
  cr : List (Nat × Nat)
  /-- `grain_scaling_minus_8 + 8` -/
  scaling : Nat
  lag : Nat
  arY : List Int
  arCb : List Int
  arCr : List Int
  /-- `ar_coeff_shift_minus_6 + 6` -/
  arShift : Nat
  scaleShift : Nat
  /-- `cb_mult`, `cb_luma_mult`, `cb_offset` if there are points -/
  cbMult : Option (Nat × Nat × Nat)
  crMult : Option (Nat × Nat × Nat)
  overlap : Bool
  clip : Bool
deriving Repr, DecidableEq

def points : P (List (Nat × Nat)) := do
  let n ← f 4
  many n do
    let v ← f 8
    let s ← f 8
    pure (v, s)

/-- `ar_coeffs_…_plus_128`. -/
def coeff : P Int := do
  let v ← f 8
  pure ((v : Int) - 128)

def mult : P (Nat × Nat × Nat) := do
  let a ← f 8
  let b ← f 8
  let c ← f 9
  pure (a, b, c)

def grainParams (mono sub : Bool) : P GrainParams := do
  let y ← points
  let fl ← (if mono then pure false else flag)
  let c ← (if mono || fl || (sub && y.isEmpty) then pure ([], []) else do
    let cb ← points
    let cr ← points
    pure (cb, cr))
  let s ← f 2
  let lag ← f 2
  let luma := 2 * lag * (lag + 1)
  let chroma := if y.isEmpty then luma else luma + 1
  let ay ← (if y.isEmpty then pure [] else many luma coeff)
  let acb ← (if fl || !c.1.isEmpty then many chroma coeff else pure [])
  let acr ← (if fl || !c.2.isEmpty then many chroma coeff else pure [])
  let sh ← f 2
  let ss ← f 2
  let mcb ← opt (!c.1.isEmpty) mult
  let mcr ← opt (!c.2.isEmpty) mult
  let ov ← flag
  let cl ← flag
  pure ⟨y, fl, c.1, c.2, s + 8, lag, ay, acb, acr, sh + 6, ss, mcb, mcr, ov, cl⟩

/-- What `apply_grain` announces: the seed, and the index of a reference or new parameters. -/
def grainInfo (inter mono sub : Bool) : P (Nat × (Nat ⊕ GrainParams)) := do
  let seed ← f 16
  let up ← (if inter then flag else pure true)
  if up then
    let p ← grainParams mono sub
    pure (seed, .inr p)
  else
    let r ← f 3
    pure (seed, .inl r)

/-- `film_grain_params`: `present` is `film_grain_params_present` of the sequence header, `shown` is
`show_frame || showable_frame`. -/
def filmGrain (present shown inter mono sub : Bool) : P (Option (Nat × (Nat ⊕ GrainParams))) :=
  if present && shown then flagged (grainInfo inter mono sub) else pure none

end Hdr

end Av1
