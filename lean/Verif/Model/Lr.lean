import Verif.Model.Tile
import Verif.Model.GlobalMotion

/-!
# Loop restoration: `encode_lr` (tile_encoder.rs 178–319)

`none` is a panic.  The output is the list of calls of the coder: bits pushed past the coder (`push_bit`, `encode_ns`) and
literals coded by it (`encode_literal`).  `usize` is a natural number; the overflows that can occur are checked.
-/

namespace Av1

/-- One call that produces output. -/
inductive LrOp where
  /-- `push_bit`, `encode_ns`: bits appended to `out_bits` as they are -/
  | raw (b : Bits)
  /-- `encode_literal(v, n)` -/
  | lit (v n : Nat)
deriving Repr, DecidableEq

/-! ## Coefficients -/

/-- `inverse_recenter` (229–237); `2*r` may overflow, `r - ((v+1)>>1)` does not underflow because `v ≤ 2*r`. -/
def lrRecenter (r v : Nat) : Option Nat :=
  if 2 * r ≥ 2 ^ 64 then none
  else if v > 2 * r then some v
  else if v &&& 1 > 0 then usub r ((v + 1) >>> 1)
  else some (r + (v >>> 1))

/-- Loop of `encode_subexp_bool` (238–262) with its variables `i`, `mk`; 64 rounds always suffice. -/
def lrSubexpGo (v n k : Nat) : Nat → Nat → Nat → Option (List LrOp)
  | 0, _, _ => none
  | fuel + 1, i, mk => do
    let b2 := if i > 0 then k + i - 1 else k
    let a := 1 <<< b2
    if mk + 3 * a ≥ 2 ^ 64 then none
    if n ≤ mk + 3 * a then do
      let tv ← usub v mk
      let m ← usub n mk
      let b ← encodeNs tv m
      some [.raw b]
    else do
      let tv ← usub v mk
      if tv < 1 <<< b2 then some [.lit 0 1, .lit tv b2]
      else do
        let l ← lrSubexpGo v n k fuel (i + 1) (mk + a)
        some (.lit 1 1 :: l)

/-- `encode_subexp_bool` (238–262). -/
def lrSubexp (v n k : Nat) : Option (List LrOp) := lrSubexpGo v n k 64 0 0

/-- `encode_unsigned_subexp_with_ref_bool` (263–272); `r<<1` drops a carry. -/
def lrUnsigned (v mx k r : Nat) : Option (List LrOp) :=
  if (r <<< 1) % 2 ^ 64 ≤ mx then do
    let tv ← lrRecenter r v
    lrSubexp tv mx k
  else do
    let m1 ← usub mx 1
    let tv ← usub m1 v
    let m1r ← usub m1 r
    let tv ← lrRecenter m1r tv
    lrSubexp tv m1r k

/-- `encode_signed_subexp_with_ref_bool` (273–276). -/
def lrSigned (v low high : Int) (k : Nat) (r : Int) : Option (List LrOp) := do
  let x ← isize (v - low)
  let m ← isize (high - low)
  let r ← isize (r - low)
  lrUnsigned (asUsize x) (asUsize m) k (asUsize r)

/-! ## Units -/

/-- `LRUnit` (block.rs 11–18). -/
structure LrUnit where
  useWiener : Bool
  useSgr : Bool
  ty : Nat
  sgrSet : Nat
  wiener : List (List Int)
  sgr : List Int
deriving Repr, DecidableEq

/-- What `encode_lr` only reads from the encoder context and the frame. -/
structure LrEnv where
  allowIntrabc : Bool
  use128 : Bool
  planes : Nat
  /-- `frame_restoration_type` -/
  types : List Nat
  /-- `loop_restoration_size` -/
  sizes : List Nat
  ssx : Bool
  ssy : Bool
  frameHeight : Nat
  upscaledWidth : Nat
  useSuperres : Bool
  denom : Nat
deriving Repr

/-- What `encode_lr` writes: the references in the encoder context and the maps in the frame. -/
structure LrState where
  refSgr : List (List Int)
  refWiener : List (List (List Int))
  lrType : List (List (List Nat))
  sgrSet : List (List (List Nat))
  sgrXqd : List (List (List (List Int)))
  wiener : List (List (List (List (List Int))))
deriving Repr, DecidableEq

/-- `m[i] = f(m[i])`, panicking outside. -/
def updAt {α : Type} (l : List α) (i : Nat) (f : α → Option α) : Option (List α) := do
  let x ← l[i]?
  let y ← f x
  some (l.set i y)

/-- `m[p][r][c] = f(m[p][r][c])`. -/
def upd3 {α : Type} (m : List (List (List α))) (p r c : Nat) (f : α → Option α) : Option (List (List (List α))) :=
  updAt m p fun a => updAt a r fun b => updAt b c f

/-- `Round2!(n, s)` for `usize` and `s` 0 or 1. -/
def round2Nat (n s : Nat) : Nat := if s = 0 then n else (n + 1 <<< (s - 1)) >>> s

/-- `count_units_in_frame` (194–196). -/
def countUnits (unit n : Nat) : Option Nat :=
  if unit = 0 then none else some (max ((n + (unit >>> 1)) / unit) 1)

/-- The units of a superblock in one plane: first and end row, first and end column. -/
structure UnitRange where
  r0 : Nat
  r1 : Nat
  c0 : Nat
  c1 : Nat
deriving Repr, DecidableEq

/-- Lines 190–212.  Divisions by zero and `0 + 0 - 1` panic. -/
def unitRange (e : LrEnv) (plane w h r c : Nat) : Option UnitRange := do
  let subx := if plane = 0 then 0 else e.ssx.toNat
  let suby := if plane = 0 then 0 else e.ssy.toNat
  let unit ← e.sizes[plane]?
  let rows ← countUnits unit (round2Nat e.frameHeight suby)
  let cols ← countUnits unit (round2Nat e.upscaledWidth subx)
  let r0 := (r * (K.MI_SIZE >>> suby) + unit - 1) / unit
  let r1 := min rows (((r + h) * (K.MI_SIZE >>> suby) + unit - 1) / unit)
  let num := if e.useSuperres then (K.MI_SIZE >>> subx) * e.denom else K.MI_SIZE >>> subx
  let den := if e.useSuperres then unit * K.SUPERRES_NUM else unit
  let c0 := (c * num + den - 1) / den
  let c1 := min cols (((c + w) * num + den - 1) / den)
  some ⟨r0, r1, c0, c1⟩

/-- The type of a unit and the flag written for it (216–227). -/
def unitType (frameType : Nat) (u : LrUnit) : List LrOp × Nat :=
  if frameType = K.RESTORE_WIENER then ([.raw [u.useWiener]], if u.useWiener then K.RESTORE_WIENER else K.RESTORE_NONE)
  else if frameType = K.RESTORE_SGRPROJ then ([.raw [u.useSgr]], if u.useSgr then K.RESTORE_SGRPROJ else K.RESTORE_NONE)
  else ([], u.ty)

/-- `RefCell::borrow_mut` while a borrow is alive or not. -/
def borrowMut (held : Bool) : Option Unit := if held then none else some ()

/-- One Wiener coefficient (286–292): output and new state.  `held` says whether the borrow of line 184 is alive at line 292; it
is. -/
def lrWienerCoef (held : Bool) (plane ur uc pass j : Nat) (u : LrUnit) (s : LrState) : Option (List LrOp × LrState) := do
  let mn ← K.wiener_taps_min[j]?
  let mx ← K.wiener_taps_max[j]?
  let k ← K.wiener_taps_k[j]?
  let v ← u.wiener[pass]?.bind (·[j]?)
  let rf ← (s.refWiener[plane]?.bind (·[pass]?)).bind (·[j]?)
  let ops ← lrSigned v mn (mx + 1) k.toNat rf
  let w ← upd3 s.wiener plane ur uc fun x => updAt x pass fun y => updAt y j fun _ => some v
  borrowMut held
  let rs ← upd3 s.refWiener plane pass j fun _ => some v
  some (ops, { s with wiener := w, refWiener := rs })

/-- The loop over the coefficients of a pass (285–293). -/
def lrWienerCoefs (held : Bool) (plane ur uc pass : Nat) (u : LrUnit) : List Nat → LrState → Option (List LrOp × LrState)
  | [], s => some ([], s)
  | j :: l, s => do
    let (a, s) ← lrWienerCoef held plane ur uc pass j u s
    let (b, s) ← lrWienerCoefs held plane ur uc pass u l s
    some (a ++ b, s)

/-- One pass (278–293): chroma has no first coefficient. -/
def lrWienerPass (held : Bool) (plane ur uc pass : Nat) (u : LrUnit) (s : LrState) : Option (List LrOp × LrState) := do
  let w ← (if plane > 0 then upd3 s.wiener plane ur uc fun x => updAt x pass fun y => updAt y 0 fun _ => some 0
    else some s.wiener)
  lrWienerCoefs held plane ur uc pass u (if plane > 0 then [1, 2] else [0, 1, 2]) { s with wiener := w }

/-- The Wiener coefficients of a unit (277–294). -/
def lrWiener (held : Bool) (plane ur uc : Nat) (u : LrUnit) (s : LrState) : Option (List LrOp × LrState) := do
  let (a, s) ← lrWienerPass held plane ur uc 0 u s
  let (b, s) ← lrWienerPass held plane ur uc 1 u s
  some (a ++ b, s)

/-- One coefficient of the self-guided filter (301–314): output, value, new state. -/
def lrSgrCoef (plane ur uc i radius : Nat) (u : LrUnit) (s : LrState) : Option (List LrOp × LrState) := do
  let mn ← K.sgrproj_xqd_min[i]?
  let mx ← K.sgrproj_xqd_max[i]?
  let rf ← s.refSgr[plane]?
  let (ops, v) ← (if radius > 0 then do
      let v ← u.sgr[i]?
      let r ← rf[i]?
      let ops ← lrSigned v mn (mx + 1) K.SGRPROJ_PRJ_SUBEXP_K r
      some (ops, v)
    else if i = 1 then do
      let r ← rf[0]?
      some ([], clip3 mn mx ((1 <<< K.SGRPROJ_PARAMS_BITS : Nat) - r))
    else some ([], 0))
  let x ← upd3 s.sgrXqd plane ur uc fun l => updAt l i fun _ => some v
  let rs ← updAt s.refSgr plane fun l => updAt l i fun _ => some v
  some (ops, { s with sgrXqd := x, refSgr := rs })

/-- The self-guided filter of a unit (296–315). -/
def lrSgr (plane ur uc : Nat) (u : LrUnit) (s : LrState) : Option (List LrOp × LrState) := do
  let m ← upd3 s.sgrSet plane ur uc fun _ => some u.sgrSet
  let p ← K.sgr_params[u.sgrSet]?
  let r0 ← p[0]?
  let r1 ← p[2]?
  let (a, s) ← lrSgrCoef plane ur uc 0 r0 u { s with sgrSet := m }
  let (b, s) ← lrSgrCoef plane ur uc 1 r1 u s
  some (.lit u.sgrSet K.SGRPROJ_PARAMS_BITS :: a ++ b, s)

/-- One unit (214–316). -/
def lrUnit (frameType plane ur uc : Nat) (u : LrUnit) (s : LrState) : Option (List LrOp × LrState) := do
  let (ops, ty) := unitType frameType u
  let m ← upd3 s.lrType plane ur uc fun _ => some ty
  let s := { s with lrType := m }
  if ty = K.RESTORE_WIENER then do
    let (o, s) ← lrWiener true plane ur uc u s
    some (ops ++ o, s)
  else if ty = K.RESTORE_SGRPROJ then do
    let (o, s) ← lrSgr plane ur uc u s
    some (ops ++ o, s)
  else some (ops, s)

/-- The units of a superblock in the order of the loops (213–214). -/
def unitList (u : UnitRange) : List (Nat × Nat) :=
  (List.range' u.r0 (u.r1 - u.r0)).flatMap fun ur => (List.range' u.c0 (u.c1 - u.c0)).map fun uc => (ur, uc)

/-- The loops over the units (213–318). -/
def lrUnits (frameType plane : Nat) (g : UnitRange) (us : List (List LrUnit)) :
    List (Nat × Nat) → LrState → Option (List LrOp × LrState)
  | [], s => some ([], s)
  | (ur, uc) :: l, s => do
    let row ← us[ur - g.r0]?
    let u ← row[uc - g.c0]?
    let (a, s) ← lrUnit frameType plane ur uc u s
    let (b, s) ← lrUnits frameType plane g us l s
    some (a ++ b, s)

/-- The loop over the planes (187–318); `us` is `sb.lr_units`, consulted only if the plane has a unit here. -/
def lrPlanes (e : LrEnv) (w h r c : Nat) (us : List (List (List LrUnit))) :
    List Nat → LrState → Option (List LrOp × LrState)
  | [], s => some ([], s)
  | plane :: ps, s => do
    let ty ← e.types[plane]?
    let (a, s) ← (if ty = K.RESTORE_NONE then some ([], s) else do
      let g ← unitRange e plane w h r c
      let l := unitList g
      if l = [] then some ([], s) else do
        let u ← us[plane]?
        lrUnits ty plane g u l s)
    let (b, s) ← lrPlanes e w h r c us ps s
    some (a ++ b, s)

/-- `encode_lr` (178–319); `sbs` is `frame.superblocks` with only the field `lr_units`. -/
def encodeLr (e : LrEnv) (r c bsize : Nat) (sbs : List (List (List (List (List LrUnit)))))
    (s : LrState) : Option (List LrOp × LrState) := do
  if e.allowIntrabc then some ([], s) else do
  let w ← K.num_4x4_blocks_wide[bsize]?
  let h ← K.num_4x4_blocks_high[bsize]?
  let n ← K.num_4x4_blocks_wide[sbSize e.use128]?
  let row ← sbs[r / n]?
  let us ← row[c / n]?
  lrPlanes e w h r c us (List.range e.planes) s

end Av1
