/-!
# `src/util.rs`

Integer helpers.  A table access outside the table is a Rust panic and is modelled as `none`.
-/

namespace Av1

/-- `LUT` of `msb16` (util.rs 64). -/
def lut16 : List Nat := [0, 0, 1, 1, 2, 2, 2, 2, 3, 3, 3, 3, 3, 3, 3, 3]

/-- `LUT` of `msb32` (util.rs 76–79). -/
def lut32 : List Nat :=
  [0, 0, 1, 1, 2, 2, 2, 2, 3, 3, 3, 3, 3, 3, 3, 3,
   4, 4, 4, 4, 4, 4, 4, 4, 4, 4, 4, 4, 4, 4, 4, 4]

/-- `LUT` of `msb64` (util.rs 94–99). -/
def lut64 : List Nat :=
  [0, 0, 1, 1, 2, 2, 2, 2, 3, 3, 3, 3, 3, 3, 3, 3,
   4, 4, 4, 4, 4, 4, 4, 4, 4, 4, 4, 4, 4, 4, 4, 4,
   5, 5, 5, 5, 5, 5, 5, 5, 5, 5, 5, 5, 5, 5, 5, 5,
   5, 5, 5, 5, 5, 5, 5, 5, 5, 5, 5, 5, 5, 5, 5, 5]

/-- One halving step shared by the three functions: `let m = n >> k; if m>0 { bit += k } else { m = n }`. -/
def msbStep (k : Nat) (nb : Nat × Nat) : Nat × Nat :=
  let m := nb.1 >>> k
  if m > 0 then (m, nb.2 + k) else nb

/-- `msb16` (util.rs 63–73); the argument is a `u16`.  `none` = table index out of bounds. -/
def msb16 (n : Nat) : Option Nat :=
  let r := msbStep 4 (msbStep 8 (n, 0))
  (lut16[r.1]?).map (r.2 + ·)

/-- `msb32` (util.rs 75–91). -/
def msb32 (n : Nat) : Option Nat :=
  let r := msbStep 4 (msbStep 8 (msbStep 16 (n, 0)))
  (lut32[r.1]?).map (r.2 + ·)

/-- `msb64` (util.rs 93–114). -/
def msb64 (n : Nat) : Option Nat :=
  let r := msbStep 4 (msbStep 8 (msbStep 16 (msbStep 32 (n, 0))))
  (lut64[r.1]?).map (r.2 + ·)

/-- `Round2!` (util.rs 25–27) on a signed operand; `>>` is arithmetic. -/
def round2 (x : Int) (n : Nat) : Int := if n = 0 then x else (x + (1 <<< (n - 1) : Nat)) >>> n

/-- `Round2Signed!` (util.rs 29–31): note that the negative branch does not negate its result. -/
def round2Signed (x : Int) (n : Nat) : Int := if x ≥ 0 then round2 x n else round2 (-x) n

/-- Loop of `FloorLog2!` (util.rs 37–41): counts how many times `t >>= 1` runs until `t` is zero. -/
def floorLog2Loop (t s : Nat) : Nat :=
  if h : t ≠ 0 then floorLog2Loop (t >>> 1) (s + 1) else s
termination_by t
decreasing_by
  simp only [Nat.shiftRight_eq_div_pow]
  omega

/-- `FloorLog2!` (util.rs 34–46) at an unsigned type: `s - 1` underflows (panic) when the argument is 0. -/
def floorLog2 (x : Nat) : Option Nat :=
  let s := floorLog2Loop x 0
  if s = 0 then none else some (s - 1)

/-- `Abs!` (util.rs 5–7). -/
def absM (x : Int) : Int := if x ≥ 0 then x else -x

/-- `Clip3!` (util.rs 9–11). -/
def clip3 (x y z : Int) : Int := if z < x then x else if z > y then y else z

/-- `Min!` (util.rs 17–19). -/
def minM (x y : Int) : Int := if x < y then x else y

/-- `Max!` (util.rs 21–23). -/
def maxM (x y : Int) : Int := if x > y then x else y

end Av1
