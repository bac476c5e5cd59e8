import Verif.Props.RangeCoder
import Verif.Props.Codes
import Verif.Props.Writer

/-!
# C142: a file made of header fields, alignment and coding sessions is read back

The encoder keeps one `BoolCoder` and one `BinaryWriter` for the whole run (main.rs 83–101); header fields go through the
`push`/`encode` functions of the coder, symbols through its sessions, everything through the writer into bytes.  Here the three
come together: `Props/Codes.lean` (fields), `Props/RangeCoder.lean` (sessions), `Props/Writer.lean` (bytes).
-/

namespace Av1

/-- A piece of the file. -/
inductive Piece where
  | field (f : Field)
  | align
  | session (bank : Bank) (ops : List Op)

/-- Arguments the code is meant for. -/
def Piece.Ok : Piece → Prop
  | .field f => f.InRange
  | .align => True
  | .session bank ops => BankOk bank ∧ OpsOk bank ops

/-- What a reader asks for: it knows the syntax, the tables, and how many bits each session takes. -/
inductive Ask where
  | field (k : Kind)
  | align
  | session (bank : Bank) (reqs : List Req) (len : Nat)

/-- What it gets. -/
inductive Got where
  | field (f : Field)
  | align
  | session (vals : List (List Nat))

/-- What the reader should get. -/
def Piece.got : Piece → Got
  | .field f => .field f
  | .align => .align
  | .session _ ops => .session (ops.map Op.val)

/-- The question that belongs to a piece, given the number of bits it took. -/
def Piece.ask (len : Nat) : Piece → Ask
  | .field f => .field f.kind
  | .align => .align
  | .session bank ops => .session bank (ops.map Op.req) len

/-- The code's calls for one piece: coder and writer afterwards, and the number of bits appended. -/
def putPiece (c : BoolCoder) (w : Writer) : Piece → Option (BoolCoder × Writer × Nat)
  | .field f => do
    let e ← writeField f
    let w ← writeBits w (e.map Bool.toNat)
    some (c, w, e.length)
  | .align => do
    let w ← byteAlign w
    some (c, w, 0)
  | .session bank ops => do
    let (c, e, _) ← encodeSession c bank ops
    let w ← writeBits w (e.map Bool.toNat)
    some (c, w, e.length)

/-- All pieces in order. -/
def putPieces (c : BoolCoder) (w : Writer) : List Piece → Option (BoolCoder × Writer × List Nat)
  | [] => some (c, w, [])
  | p :: ps => do
    let (c, w, n) ← putPiece c w p
    let (c, w, ns) ← putPieces c w ps
    some (c, w, n :: ns)

/-- The reader: one decoder object, the bits of the file, `pos` bits of it already used. -/
def getPieces (d : BoolCoder) (pos : Nat) (input : Bits) : List Ask → Option (List Got × Bits)
  | [] => some ([], input)
  | .field k :: as => do
    let (f, rest) ← readField input k
    let (gs, rest') ← getPieces d (pos + (input.length - rest.length)) rest as
    some (.field f :: gs, rest')
  | .align :: as => do
    let n := (8 - pos % 8) % 8
    let (gs, rest) ← getPieces d (pos + n) (input.drop n) as
    some (.align :: gs, rest)
  | .session bank reqs len :: as => do
    let (vs, d, _, _) ← decodeSession d input (len / 8) bank reqs
    let (gs, rest) ← getPieces d (pos + len) (input.drop len) as
    some (.session vs :: gs, rest)

theorem putPieces_spec (ps : List Piece) (h : ∀ p ∈ ps, p.Ok) (c : BoolCoder) {w : Writer} {s : Bits} (hw : Holds w s) :
    ∃ c' w' ns e, putPieces c w ps = some (c', w', ns) ∧ ns.length = ps.length ∧ Holds w' (s ++ e) ∧
      ∀ (d : BoolCoder) (rest : Bits), getPieces d s.length (e ++ rest) (List.zipWith Piece.ask ns ps) =
        some (ps.map Piece.got, rest) := by
  induction ps generalizing c w s with
  | nil => exact ⟨c, w, [], [], rfl, rfl, by simpa using hw, fun d rest => rfl⟩
  | cons p ps ih =>
    have hp := h p (by simp)
    have hps : ∀ q ∈ ps, q.Ok := fun q hq => h q (by simp [hq])
    cases p with
    | field f =>
      obtain ⟨a, h1, h2⟩ := field_round_trip f hp
      obtain ⟨w1, h3, h4⟩ := holds_bits a hw
      obtain ⟨c', w', ns, e, i1, i2, i3, i4⟩ := ih hps c h4
      refine ⟨c', w', a.length :: ns, a ++ e, ?_, by simp [i2], by rwa [← List.append_assoc], fun d rest => ?_⟩
      · simp [putPieces, putPiece, h1, h3, i1]
      · simp only [List.zipWith_cons_cons, Piece.ask, getPieces, List.append_assoc, h2, List.map_cons, Piece.got]
        have : s.length + ((a ++ (e ++ rest)).length - (e ++ rest).length) = (s ++ a).length := by
          simp only [List.length_append]; omega
        simp only [Option.bind_eq_bind, Option.bind_some, this, i4]
    | align =>
      obtain ⟨w1, h3, h4⟩ := holds_align hw
      obtain ⟨c', w', ns, e, i1, i2, i3, i4⟩ := ih hps c h4
      refine ⟨c', w', 0 :: ns, List.replicate ((8 - s.length % 8) % 8) false ++ e, ?_, by simp [i2],
        by rwa [← List.append_assoc], fun d rest => ?_⟩
      · simp [putPieces, putPiece, h3, i1]
      · simp only [List.zipWith_cons_cons, Piece.ask, getPieces, List.append_assoc, List.map_cons, Piece.got]
        have h5 := i4 d rest
        rw [List.length_append, List.length_replicate] at h5
        have : (List.replicate ((8 - s.length % 8) % 8) false ++ (e ++ rest)).drop ((8 - s.length % 8) % 8) = e ++ rest := by
          rw [List.drop_append_of_le_length (by simp), List.drop_of_length_le (by simp), List.nil_append]
        rw [this, h5]
        rfl
    | session bank ops =>
      obtain ⟨c1, a, bank', extra, k, h1, -, -, -, -, -, -, -, -, h2⟩ := session_spec hp.1 hp.2 c
      obtain ⟨w1, h3, h4⟩ := holds_bits a hw
      obtain ⟨c', w', ns, e, i1, i2, i3, i4⟩ := ih hps c1 h4
      refine ⟨c', w', a.length :: ns, a ++ e, ?_, by simp [i2], by rwa [← List.append_assoc], fun d rest => ?_⟩
      · simp [putPieces, putPiece, h1, h3, i1]
      · obtain ⟨d', g, -⟩ := h2 d (a.length / 8) (e ++ rest)
        simp only [List.zipWith_cons_cons, Piece.ask, getPieces, List.append_assoc, List.map_cons, Piece.got, g,
          Option.bind_eq_bind, Option.bind_some]
        have h5 := i4 d' rest
        rw [List.length_append] at h5
        have : (a ++ (e ++ rest)).drop a.length = e ++ rest := List.drop_left
        rw [this, h5]
        rfl

/-- **C142**. Any mixture of header fields, alignments and coding sessions, written with one coder in any state and one new
writer and aligned at the end, gives whole bytes from which a reader gets every field and every coded value back in order; at
most seven zero bits are left over. -/
theorem C142_file (ps : List Piece) (h : ∀ p ∈ ps, p.Ok) (c : BoolCoder) :
    ∃ c' w ns w', putPieces c Writer.new ps = some (c', w, ns) ∧ byteAlign w = some w' ∧ w'.index = 0 ∧
      (∀ b ∈ w'.out, b < 256) ∧
      ∃ n, n < 8 ∧ ∀ (d : BoolCoder), getPieces d 0 (bytesBits w'.out) (List.zipWith Piece.ask ns ps) =
        some (ps.map Piece.got, List.replicate n false) := by
  obtain ⟨c', w, ns, e, h1, -, h2, h3⟩ := putPieces_spec ps h c holds_new
  obtain ⟨w', h4, h5⟩ := holds_align h2
  rw [List.nil_append] at h5
  have hl := h5.length
  rw [List.length_append, List.length_replicate] at hl
  have hi := h5.idx
  have h0 : w'.index = 0 := by omega
  refine ⟨c', w, ns, w', h1, h4, h0, h5.bytes, (8 - e.length % 8) % 8, by omega, fun d => ?_⟩
  have hb := h5.bits
  rw [h0, toBits, List.append_nil] at hb
  rw [hb]
  exact h3 d _

/-- Two files with the same questions and different contents are different. -/
theorem C142_injective (ps qs : List Piece) (hp : ∀ p ∈ ps, p.Ok) (hq : ∀ q ∈ qs, q.Ok) (c c' c1 c1' : BoolCoder)
    (w w' v v' : Writer) (ns ms : List Nat) (h1 : putPieces c Writer.new ps = some (c1, w, ns)) (h2 : byteAlign w = some w')
    (h3 : putPieces c' Writer.new qs = some (c1', v, ms)) (h4 : byteAlign v = some v')
    (hk : List.zipWith Piece.ask ns ps = List.zipWith Piece.ask ms qs) (ho : w'.out = v'.out) :
    ps.map Piece.got = qs.map Piece.got := by
  obtain ⟨_, _, _, _, a1, a2, -, -, n, -, a3⟩ := C142_file ps hp c
  obtain ⟨_, _, _, _, b1, b2, -, -, m, -, b3⟩ := C142_file qs hq c'
  rw [h1] at a1
  rw [h3] at b1
  simp only [Option.some.injEq, Prod.mk.injEq] at a1 b1
  obtain ⟨rfl, rfl, rfl⟩ := a1
  obtain ⟨rfl, rfl, rfl⟩ := b1
  rw [h2] at a2
  rw [h4] at b2
  simp only [Option.some.injEq] at a2 b2
  subst a2 b2
  have a := a3 c
  have b := b3 c
  rw [ho, hk, b] at a
  simp only [Option.some.injEq, Prod.mk.injEq] at a
  exact a.1.symm

/-- Non-trivial case: a field, two sessions on one coder of which the second is not whole bytes, another field. -/
def samplePieces : List Piece :=
  [.field (.fixed 5 17), .session [[16384, 32768, 0]] [.sym 0 1, .lit 2 0], .align,
    .session [[16384, 32768, 0]] [.lit 8 3, .sym 0 0], .field (.leb128 300)]

example : ∀ p ∈ samplePieces, p.Ok := by
  have : ValidCdf [16384, 32768, 0] := ⟨[16384], 0, rfl, by simp [Inc], by decide, by decide, by decide⟩
  simp [samplePieces, Piece.Ok, Field.InRange, BankOk, OpsOk, OpOk, this, symbols]

example : (putPieces BoolCoder.new Writer.new samplePieces).map (·.2.2) = some [5, 24, 0, 30, 16] := by decide +kernel

end Av1
