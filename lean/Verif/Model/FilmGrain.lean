import Verif.Model.FrameHeader

/-! # `src/obu_encoder.rs` 1302–1390: film grain parameters -/

namespace Av1

/-- `FilmGrainParams` (frame.rs 81–111). -/
structure Grain where
  apply : Bool
  seed : Nat
  update : Bool
  refIdx : Nat
  numY : Nat
  yValue : List Nat
  yScaling : List Nat
  fromLuma : Bool
  numCb : Nat
  numCr : Nat
  cbValue : List Nat
  cbScaling : List Nat
  crValue : List Nat
  crScaling : List Nat
  scaling : Nat
  lag : Nat
  arY : List Int
  arCb : List Int
  arCr : List Int
  arShift : Nat
  scaleShift : Nat
  cbMult : Nat
  cbLumaMult : Nat
  cbOffset : Nat
  crMult : Nat
  crLumaMult : Nat
  crOffset : Nat
  overlap : Bool
  clip : Bool
deriving Repr, DecidableEq

/-- `FilmGrainParams::new` (frame.rs 114–144). -/
def Grain.new : Grain := ⟨false, 0, false, 0, 0, [], [], false, 0, 0, [], [], [], [], 0, 0, [], [], [], 0, 0, 0, 0, 0, 0, 0, 0,
  false, false⟩

/-- The points of one plane: `for i in 0..n { value[i]; scaling[i] }` (1330–1333, 1344–1347, 1349–1352). -/
def pushPoints (n : Nat) (values scalings : List Nat) : Option Raw :=
  cat ((List.range' 0 n).map fun i => cat [pushAt values i 8, pushAt scalings i 8])

/-- `(coeffs[i]+128) as u32` in eight bits, on `i16` (1362, 1369, 1374). -/
def pushCoeff (coeffs : List Int) (i : Nat) : Option Raw := do
  let c ← coeffs[i]?
  if c + 128 > 32767 then none else pushN ((c + 128) % 2 ^ 32).toNat 8

/-- The coefficients of one plane. -/
def pushCoeffs (n : Nat) (coeffs : List Int) : Option Raw := cat ((List.range' 0 n).map (pushCoeff coeffs))

/-- The chroma fields are not coded (1338–1339). -/
def Grain.noChroma (g : Grain) (mono sub : Bool) : Bool :=
  mono || g.fromLuma || (sub && decide (g.numY = 0))

/-- `fgp` after the assignments of 1335, 1340, 1341. -/
def Grain.norm (g : Grain) (mono sub : Bool) : Grain :=
  let g := if mono then { g with fromLuma := false } else g
  if g.noChroma mono sub then { g with numCb := 0, numCr := 0 } else g

/-- The parameters when `update_grain` (1328–1388); `sub` is `subsampling_x && subsampling_y`. -/
def encodeGrainBody (g0 : Grain) (mono sub : Bool) : Option Raw := do
  let g := g0.norm mono sub
  let s ← usub g.scaling 8
  let a ← usub g.arShift 6
  let luma := 2 * g.lag * (g.lag + 1)
  let chroma := if g.numY > 0 then luma + 1 else luma
  cat [pushN g.numY 4, pushPoints g.numY g.yValue g.yScaling,
    if mono then cat [] else pushB g.fromLuma,
    if g.noChroma mono sub then cat []
    else cat [pushN g.numCb 4, pushPoints g.numCb g.cbValue g.cbScaling, pushN g.numCr 4,
      pushPoints g.numCr g.crValue g.crScaling],
    pushN s 2, pushN g.lag 2,
    if g.numY > 0 then pushCoeffs luma g.arY else cat [],
    if g.fromLuma || decide (g.numCb > 0) then pushCoeffs chroma g.arCb else cat [],
    if g.fromLuma || decide (g.numCr > 0) then pushCoeffs chroma g.arCr else cat [],
    pushN a 2, pushN g.scaleShift 2,
    if g.numCb > 0 then cat [pushN g.cbMult 8, pushN g.cbLumaMult 8, pushN g.cbOffset 9] else cat [],
    if g.numCr > 0 then cat [pushN g.crMult 8, pushN g.crLumaMult 8, pushN g.crOffset 9] else cat [],
    pushB g.overlap, pushB g.clip]

/-- What film grain reads besides the parameters. -/
structure GrainEnv where
  /-- `show_frame || showable_frame` -/
  shown : Bool
  /-- `frame.frame_type == INTER_FRAME` -/
  inter : Bool
  mono : Bool
  /-- `subsampling_x && subsampling_y` -/
  sub : Bool
  /-- `ref_film_grain_params` -/
  refs : List Grain
deriving Repr, DecidableEq

/-- `ecx.film_grain_params` after 1304–1306. -/
def grainNow (g : Option Grain) (e : GrainEnv) : Grain :=
  match g with
  | none => Grain.new
  | some g => if e.shown then g else Grain.new

/-- Film grain parameters (1302–1390).  The reference is fetched first, so an index of 8 or more panics. -/
def encodeGrain (g : Option Grain) (e : GrainEnv) : Option Raw := do
  let g := grainNow g e
  let _ ← e.refs[g.refIdx]?
  cat [pushB g.apply,
    if g.apply then
      cat [pushN g.seed 16, if e.inter then pushB g.update else cat [],
        if !(if e.inter then g.update else true) then pushN g.refIdx 3 else encodeGrainBody g e.mono e.sub]
    else cat []]

/-- `ecx.film_grain_params` after the section. -/
def grainAfter (g : Option Grain) (e : GrainEnv) : Option Grain := do
  let g := grainNow g e
  let r ← e.refs[g.refIdx]?
  some (if g.apply then
    let u := if e.inter then g.update else true
    if u then ({ g with update := u }).norm e.mono e.sub else { r with seed := g.seed }
  else Grain.new)

end Av1
