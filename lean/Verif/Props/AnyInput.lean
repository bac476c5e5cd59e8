import Verif.Lemmas.AnyInput
import Verif.Props.Decoder

/-!
# C140: the decoder on any input

The round-trip properties say what the decoder makes of bits that the encoder wrote.  Here the bits are arbitrary: damaged,
cut off, or never written by an encoder at all.
-/

namespace Av1

/-- **C140.** Whatever the bits are: the decoder answers legal requests if there are enough bits, it reads no more than
that, and the answers are values that an encoder could have coded with the same calls.  If it did, the tables would be the
same afterwards, and it would have written as many bits, with the smallest number that decodes to these values. -/
theorem C140_any_input (bank : Bank) (hb : BankOk bank) (reqs : List Req) (hr : ∀ r ∈ reqs, ReqOk bank r) (d : BoolCoder)
    (input : Bits) (sz : Nat) :
    (15 + (reqs.map Req.worst).sum ≤ input.length → (decodeSession d input sz bank reqs).isSome) ∧
    ∀ vs d' rest bank', decodeSession d input sz bank reqs = some (vs, d', rest, bank') →
      BankOk bank' ∧ ∃ ops used, OpsOk bank ops ∧ ops.map Op.req = reqs ∧ ops.map Op.val = vs ∧
        input = used ++ rest ∧ used.length ≤ 15 + (reqs.map Req.worst).sum ∧
        ∀ c, ∃ c' B extra, encodeSession c bank ops = some (c', B ++ extra, bank') ∧ B.length = used.length ∧
          num B ≤ num used ∧ extra.length ≤ 8 ∧ ∀ b ∈ extra, b = false := by
  have co := co_ops reqs bank hb hr
  constructor
  · intro hl
    have hp := popBits_append (input.take 15) (input.drop 15) 0
    rw [List.take_append_drop, List.length_take, Nat.min_eq_left (by omega)] at hp
    obtain ⟨⟨d1, rest⟩, hi⟩ : ∃ x, initDecoder d input sz = some x := by
      unfold initDecoder; rw [hp]; exact ⟨_, rfl⟩
    obtain ⟨u, h1, h2, h3⟩ := rel_start d d input hi
    have := (co _ _ _ _ _ h3).1 rest (by rw [h1, List.length_append] at hl; omega)
    simpa [decodeSession, hi] using this
  · intro vs d' rest bank' h
    simp only [decodeSession, Option.bind_eq_bind, Option.bind_eq_some_iff] at h
    obtain ⟨⟨d1, r1⟩, hi, h⟩ := h
    simp only at h
    have any : ∀ c, ∃ ops used, OpsOk bank ops ∧ ops.map Op.req = reqs ∧ ops.map Op.val = vs ∧
        input = used ++ rest ∧ used.length ≤ 15 + (reqs.map Req.worst).sum ∧
        ∃ c' B extra, encodeSession c bank ops = some (c', B ++ extra, bank') ∧ B.length = used.length ∧
          num B ≤ num used ∧ extra.length ≤ 8 ∧ ∀ b ∈ extra, b = false := by
      intro c
      obtain ⟨u, u1, u2, u3⟩ := rel_start c d input hi
      obtain ⟨c1, em, v, ⟨ops, o1, o2, o3, o4⟩, v2, v3, v4⟩ := (co _ _ _ _ _ u3).2 _ _ _ _ _ h
      obtain ⟨B, extra, b1, b2, b3, b4, b5⟩ := exit_spec v4.inv v4.v v4.r
      simp only [List.nil_append] at b1 b2 b3 o4 v4
      refine ⟨ops, u ++ v, o3, o1, o2, by rw [u1, v2, List.append_assoc], by rw [List.length_append]; omega,
        (exitEncoder c1).1, B, extra, ?_, by rw [List.length_append]; omega, ?_, b4, b5⟩
      · simp only [encodeSession, o4, Option.bind_eq_bind, Option.bind_some, b1]
      · have := v4.lo
        rw [← b3] at this
        rw [num_append]
        exact_mod_cast this
    obtain ⟨ops, used, h1, h2, h3, h4, h5, h6⟩ := any d
    refine ⟨?_, ops, used, h1, h2, h3, h4, h5, fun c => ?_⟩
    · obtain ⟨_, _, b2, _, _, g1, g2, -⟩ := session_spec hb h1 d
      obtain ⟨_, _, _, g3, -⟩ := h6
      rw [g1] at g3
      cases g3
      exact g2
    · obtain ⟨ops', used', g1, g2, g3, g4, g5, g6⟩ := any c
      obtain rfl : ops' = ops := ops_ext_req (by rw [g2, h2]) (by rw [g3, h3])
      obtain rfl : used' = used := List.append_cancel_right (by rw [← g4, ← h4])
      exact g6

theorem reqs_ok {bank : Bank} {ops : List Op} (ho : OpsOk bank ops) : ∀ r ∈ ops.map Op.req, ReqOk bank r := by
  intro r hr
  obtain ⟨op, h1, rfl⟩ := List.mem_map.1 hr
  have := ho op h1
  cases op with
  | sym t s => obtain ⟨cdf, h2, -⟩ := this; exact (List.getElem?_eq_some_iff.1 h2).1
  | lit n v => exact this.1
  | _ => exact this

/-- The inputs that decode to given values: those whose first bits, as a number, lie in an interval that starts with what the
encoder writes. -/
theorem C140_interval (bank : Bank) (hb : BankOk bank) (ops : List Op) (ho : OpsOk bank ops) (c : BoolCoder) :
    ∃ c' bank' B extra R, encodeSession c bank ops = some (c', B ++ extra, bank') ∧ 32768 ≤ R ∧ R < 65536 ∧
      ∀ (d : BoolCoder) (sz : Nat) (u rest : Bits), u.length = B.length →
        ((∃ d' rest' bank'', decodeSession d (u ++ rest) sz bank (ops.map Op.req) = some (ops.map Op.val, d', rest', bank''))
          ↔ num B ≤ num u ∧ num u < num B + R) := by
  obtain ⟨bank', hb', hs', hsim⟩ := sim_ops ops bank hb ho
  obtain ⟨c1, em, k, a1, a2, a3, a4, -, -, -, a6, a7, a8⟩ := hsim [] (initEncoder c) 0 (initEncoder_inv c)
    (by simp [initEncoder]) (le_of_eq rfl)
  rw [List.nil_append, Nat.zero_add] at *
  obtain ⟨B, extra, b1, b2, b3, b4, b5⟩ := exit_spec a2 a3 a4
  rw [encTo_some] at a1
  obtain ⟨R, hR⟩ := Int.eq_ofNat_of_zero_le (le_of_lt a2.r0)
  have hr1 := a2.r1
  refine ⟨(exitEncoder c1).1, bank', B, extra, R, ?_, by omega, by omega, fun d sz u rest hu => ⟨?_, ?_⟩⟩
  · simp only [encodeSession, a1, Option.bind_eq_bind, Option.bind_some, b1]
  · rintro ⟨d', rest', bank'', h⟩
    simp only [decodeSession, Option.bind_eq_bind, Option.bind_eq_some_iff] at h
    obtain ⟨⟨d1, r1⟩, hi, h⟩ := h
    simp only at h
    obtain ⟨v, v1, v2, v3⟩ := rel_start c d _ hi
    obtain ⟨c2, em2, w, ⟨ops', o1, o2, o3, o4⟩, w2, w3, w4⟩ := (co_ops _ bank hb (reqs_ok ho) _ _ _ _ _ v3).2 _ _ _ _ _ h
    obtain rfl : ops' = ops := ops_ext_req o1 o2
    rw [a1] at o4
    cases o4
    have hk : k = w.length := by simpa using a2.unique w4.inv
    have huw : u = v ++ w := by
      have h1 : (u ++ rest).take u.length = u := by simp
      have h2 : (v ++ w ++ rest').take (v ++ w).length = v ++ w := List.take_left
      have h3 : u ++ rest = v ++ w ++ rest' := by rw [v1, w2, List.append_assoc]
      have h4 : u.length = (v ++ w).length := by rw [List.length_append]; omega
      rw [h3, h4, h2] at h1
      exact h1.symm
    have hl := w4.lo
    have hh := w4.hi
    simp only [List.nil_append] at hl hh
    rw [← b3] at hl hh
    rw [huw, num_append]
    rw [hR] at hh
    constructor
    · exact_mod_cast hl
    · exact_mod_cast hh
  · rintro ⟨h1, h2⟩
    have hl0 : low [] (initEncoder c) = 0 := by simp [low, pend, initEncoder]
    have hr0 : (initEncoder c).range = 32768 := rfl
    have hB : u = u.take 15 ++ u.drop 15 := by simp
    have htd := num_take_drop u 15 (by omega)
    rw [hu, b2, show k + 15 - 15 = k by omega] at htd
    have h15 : (u.take 15).length = 15 := by simp; omega
    have hpop := popBits_append (u.take 15) (u.drop 15 ++ rest) 0
    rw [h15, ← List.append_assoc, ← hB] at hpop
    have hk : (u.drop 15).length = k := by simp; omega
    obtain ⟨⟨d1, r1⟩, hi⟩ : ∃ x, initDecoder d (u ++ rest) sz = some x := by
      unfold initDecoder; rw [hpop]; exact ⟨_, rfl⟩
    obtain ⟨v, v1, v2, v3⟩ := rel_start c d _ hi
    have hv : v = u.take 15 := by
      have h1 : (v ++ r1).take 15 = v := by rw [← v2]; simp
      rw [← h1, ← v1, List.take_append_of_le_length (by omega)]
    have hr' : r1 = u.drop 15 ++ rest := by
      have : v ++ r1 = v ++ (u.drop 15 ++ rest) := by rw [← v1, hv, ← List.append_assoc, ← hB]
      exact List.append_cancel_left this
    have hval := v3.value
    rw [hl0, hr0, hv] at hval
    obtain ⟨dc', e1, -⟩ := a8 (num u) (u.drop 15) rest d1 hk htd.2 (by omega) (by omega) v3.range (by
      rw [hval, htd.1, hr0, hl0]; push_cast; ring)
    rw [decTo_some] at e1
    exact ⟨dc', rest, bank', by simp only [decodeSession, hi, Option.bind_eq_bind, Option.bind_some, hr', e1]⟩

/-- Damage has no effect before the place where it is: what has been decoded depends on the bits taken only, for any tables and
any requests, legal or not. -/
theorem C140_local (d : BoolCoder) (input : Bits) (sz : Nat) (bank : Bank) (reqs : List Req) (vs : List (List Nat))
    (d' : BoolCoder) (rest : Bits) (bank' : Bank)
    (h : decodeSession d input sz bank reqs = some (vs, d', rest, bank')) :
    ∃ used, input = used ++ rest ∧ ∀ rest', decodeSession d (used ++ rest') sz bank reqs = some (vs, d', rest', bank') := by
  have init : Local (fun d i => (initDecoder d i sz).map fun x => ((), x.1, x.2, ())) := by
    intro d input v d' rest t h
    simp only [initDecoder, Option.bind_eq_bind, Option.map_eq_some_iff, Option.bind_eq_some_iff, Option.some.injEq,
      Prod.mk.injEq] at h
    obtain ⟨⟨d1, r1⟩, ⟨⟨w, r⟩, h1, rfl, rfl⟩, -, rfl, rfl, -⟩ := h
    obtain ⟨used, e1, e2, e3⟩ := popBits_some _ _ _ h1
    refine ⟨used, e1, fun r' => ?_⟩
    have hp := popBits_append used r' 0
    rw [e2, ← e3] at hp
    simp only [initDecoder, hp, Option.bind_eq_bind, Option.bind_some, Option.map_some]
  refine (init.seq (g := fun _ _ d i => decodeOps d i bank reqs) fun _ _ => local_ops reqs bank).congr
    (g := fun d i => decodeSession d i sz bank reqs) ?_ d input vs d' rest bank' h
  intro d i
  cases hd : initDecoder d i sz <;> simp [decodeSession, hd]

/-! ### Decoders that decide as they go -/

/-- All requests are legal as long as the answers are, except that a table may be missing. -/
def Dec.Asks {α : Type} (bank : Bank) : Dec α → Prop
  | .done _ => True
  | .fail => True
  | .ask r k => ((∀ t, r ≠ .sym t) → ReqOk bank r) ∧ ∀ op : Op, op.req = r → OpOk bank op → (k op.val).Asks bank

theorem Dec.Asks.mono {α : Type} {a b : Bank} (h : SameShape a b) {x : Dec α} (hx : x.Asks a) : x.Asks b := by
  induction x with
  | done => trivial
  | fail => trivial
  | ask r k ih => exact ⟨fun ht => (hx.1 ht).mono h, fun op h1 h2 => ih _ (hx.2 op h1 (h2.mono h.symm))⟩

theorem Dec.ops_of_run {α : Type} (x : Dec α) : ∀ (bank : Bank), BankOk bank → x.Asks bank → ∀ O c n X d, Rel O c n X d →
    ∀ input a d' rest bank', x.run d input bank = some (a, d', rest, bank') →
    ∃ ops, x.hears ops = some (a, []) ∧ OpsOk bank ops ∧
      decodeOps d input bank (ops.map Op.req) = some (ops.map Op.val, d', rest, bank') := by
  induction x with
  | done b =>
    intro bank hb _ O c n X d _ input a d' rest bank' h
    simp only [Dec.run, Option.some.injEq, Prod.mk.injEq] at h
    obtain ⟨rfl, rfl, rfl, rfl⟩ := h
    exact ⟨[], rfl, by simp [OpsOk], rfl⟩
  | fail => intro bank hb _ O c n X d _ input a d' rest bank' h; simp [Dec.run] at h
  | ask r k ih =>
    intro bank hb hx O c n X d hrel input a d' rest bank' h
    simp only [Dec.run] at h
    split at h
    · rename_i v d1 r1 b1 hd
      have hr : ReqOk bank r := by
        by_cases ht : ∃ t, r = .sym t
        · obtain ⟨t, rfl⟩ := ht
          simp only [decodeOp, Option.bind_eq_bind, Option.bind_eq_some_iff] at hd
          obtain ⟨cdf, h1, -⟩ := hd
          exact (List.getElem?_eq_some_iff.1 h1).1
        · exact hx.1 fun t h => ht ⟨t, h⟩
      obtain ⟨c1, em, used, ⟨op, rfl, rfl, o3, o4⟩, u1, u2, u3⟩ := (co_op hb hr _ _ _ _ _ hrel).2 _ _ _ _ _ hd
      obtain ⟨g1, g2⟩ := encodeOp_bank hb o4
      obtain ⟨ops, p1, p2, p3⟩ := ih op.val b1 g1 ((hx.2 op rfl o3).mono g2) _ _ _ _ _ u3 _ _ _ _ _ h
      refine ⟨op :: ops, by simpa [Dec.hears] using p1, ?_, ?_⟩
      · intro o ho
        rcases List.mem_cons.1 ho with rfl | ho
        · exact o3
        · exact (p2 o ho).mono g2.symm
      · simp [decodeOps, hd, p3]
    · simp at h

/-- The same for a decoder that decides as it goes: what it returns for arbitrary bits is what it returns for some bits that
an encoder wrote, namely the smallest ones with the same calls. -/
theorem C140_decoder {α : Type} (x : Dec α) (bank : Bank) (hb : BankOk bank) (hx : x.Asks bank) (d d' : BoolCoder)
    (input rest : Bits) (sz : Nat) (a : α) (bank' : Bank) (h : x.onBits d input sz bank = some (a, d', rest, bank')) :
    ∃ ops used, OpsOk bank ops ∧ x.hears ops = some (a, []) ∧ input = used ++ rest ∧
      ∀ c, ∃ c' B extra, encodeSession c bank ops = some (c', B ++ extra, bank') ∧ B.length = used.length ∧
        num B ≤ num used ∧ extra.length ≤ 8 ∧ ∀ b ∈ extra, b = false := by
  unfold Dec.onBits at h
  split at h
  · rename_i d1 r1 hi
    obtain ⟨u, -, -, u3⟩ := rel_start d d input hi
    obtain ⟨ops, h1, h2, h3⟩ := x.ops_of_run bank hb hx _ _ _ _ _ u3 _ _ _ _ _ h
    have hd : decodeSession d input sz bank (ops.map Op.req) = some (ops.map Op.val, d', rest, bank') := by
      simp only [decodeSession, hi, Option.bind_eq_bind, Option.bind_some, h3]
    obtain ⟨-, ops', used, g1, g2, g3, g4, -, g6⟩ := (C140_any_input bank hb _ (reqs_ok h2) d input sz).2 _ _ _ _ hd
    obtain rfl : ops' = ops := ops_ext_req g2 g3
    exact ⟨ops', used, h2, h1, g4, g6⟩
  · simp at h

/-! The block decoder asks for symbols, and for literals of at most eight bits but for the index of CDEF. -/

theorem Dec.Asks.pure {α : Type} {bank : Bank} (a : α) : (Pure.pure a : Dec α).Asks bank := trivial

theorem Dec.Asks.done {α : Type} {bank : Bank} (a : α) : (Dec.done a).Asks bank := trivial

theorem Dec.Asks.fail {α : Type} {bank : Bank} : (Dec.fail : Dec α).Asks bank := trivial

theorem Dec.Asks.bind {α β : Type} {bank : Bank} {x : Dec α} {f : α → Dec β} (hx : x.Asks bank) (hf : ∀ a, (f a).Asks bank) :
    (x >>= f).Asks bank := by
  induction x with
  | done a => exact hf a
  | fail => trivial
  | ask r k ih => exact ⟨hx.1, fun op h1 h2 => ih _ (hx.2 op h1 h2)⟩

theorem Dec.Asks.elem {bank : Bank} (e : Elem) (nb : Nbrs) : (Dec.elem e nb).Asks bank := by
  unfold Dec.elem
  split
  · refine ⟨fun h => absurd rfl (h _), fun op _ _ => ?_⟩
    simp only
    split <;> trivial
  · trivial

theorem Dec.Asks.lit_bind {β : Type} {bank : Bank} {n : Nat} (hn : n ≤ 64) {f : Nat → Dec β}
    (hf : ∀ v < 2 ^ n, (f v).Asks bank) : (Dec.lit n >>= f).Asks bank := by
  refine ⟨fun _ => hn, fun op h1 h2 => ?_⟩
  cases op with
  | lit m v =>
    simp only [Op.req, Req.lit.injEq] at h1
    subst h1
    exact hf v h2.2
  | _ => simp [Op.req] at h1

theorem Dec.Asks.ofOption {α : Type} {bank : Bank} (o : Option α) : (Dec.ofOption o).Asks bank := by
  cases o <;> trivial

theorem Dec.Asks.single {bank : Bank} (nb : Nbrs) : (Dec.single nb).Asks bank := by
  unfold Dec.single
  repeat' first | with_reducible (refine Dec.Asks.bind (Dec.Asks.elem _ _) fun a => ?_) | split | exact Dec.Asks.pure _ |
      exact Dec.Asks.done _ | exact Dec.Asks.fail

theorem Dec.Asks.candidate {bank : Bank} (m : FoundMvs) (nb : Nbrs) : ∀ (is : List Nat) (r : Nat),
    (Dec.candidate m nb is r).Asks bank
  | [], r => trivial
  | i :: is, r => by
    unfold Dec.candidate
    split
    · refine Dec.Asks.bind (Dec.Asks.elem _ _) fun a => ?_
      split
      · trivial
      · exact Dec.Asks.candidate m nb is _
    · exact Dec.Asks.candidate m nb is _

theorem Dec.Asks.inter {bank : Bank} (s : Blocks.Seg) (id : Nat) (two : Bool) (cands : Int × Int → Option FoundMvs)
    (nb : Nbrs) : (Dec.inter s id two cands nb).Asks bank := by
  unfold Dec.inter
  refine Dec.Asks.bind ?_ fun r => Dec.Asks.bind (Dec.Asks.ofOption _) fun m => Dec.Asks.bind ?_ fun y => ?_
  · unfold Dec.reference
    repeat' first | with_reducible exact Dec.Asks.single nb | with_reducible (refine Dec.Asks.bind (Dec.Asks.elem _ _) fun a => ?_) | split |
      exact Dec.Asks.pure _ | exact Dec.Asks.done _ | exact Dec.Asks.fail
  · unfold Dec.mode
    repeat' first | with_reducible (refine Dec.Asks.bind (Dec.Asks.elem _ _) fun a => ?_) | split | exact Dec.Asks.pure _ |
      exact Dec.Asks.done _ | exact Dec.Asks.fail
  · split
    · trivial
    · refine Dec.Asks.bind ?_ fun i => Dec.Asks.bind (Dec.Asks.ofOption _) fun v => trivial
      unfold Dec.candidateOf
      split
      · exact Dec.Asks.candidate m nb _ _
      · trivial

theorem Dec.Asks.delta {bank : Bank} (a : Elem) (nb : Nbrs) : (Dec.delta a nb).Asks bank := by
  unfold Dec.delta
  refine Dec.Asks.bind ?_ fun mag => ?_
  · unfold Dec.magnitude
    refine Dec.Asks.bind (Dec.Asks.elem _ _) fun small => ?_
    split
    · exact Dec.Asks.lit_bind (by decide) fun n hn => Dec.Asks.lit_bind (by omega) fun v _ => trivial
    · trivial
  · split
    · trivial
    · refine Dec.Asks.lit_bind (by decide) fun n hn => ?_
      split <;> trivial

theorem Dec.Asks.lfDeltas {bank : Bank} (a : Adjust) (nb : Nbrs) : ∀ (n i : Nat) (l : List Int),
    (Dec.lfDeltas a nb n i l).Asks bank
  | 0, i, l => trivial
  | n + 1, i, l => by
    unfold Dec.lfDeltas
    exact Dec.Asks.bind (Dec.Asks.delta _ _) fun d => Dec.Asks.bind (Dec.Asks.ofOption _) fun x => Dec.Asks.lfDeltas a nb n _ _

theorem Dec.Asks.block {bank : Bank} (h : Here) (hc : ∀ n, h.adjust.cdef = .due n → n ≤ 64) : (Dec.block h).Asks bank := by
  unfold Dec.block
  refine Dec.Asks.bind ?_ fun p => Dec.Asks.bind ?_ fun i => Dec.Asks.bind ?_ fun q => Dec.Asks.bind ?_ fun l =>
    Dec.Asks.bind ?_ fun t => ?_
  · have seg : ∀ k, (Dec.segmentId h.seg h.segNbrs k h.nb).Asks bank := by
      intro k
      unfold Dec.segmentId
      repeat' first | with_reducible (refine Dec.Asks.bind (Dec.Asks.elem _ _) fun a => ?_) | split | exact Dec.Asks.pure _ |
      exact Dec.Asks.done _ | exact Dec.Asks.fail
    have skip : ∀ id, (Dec.skip h.seg id h.nb).Asks bank := by
      intro id
      unfold Dec.skip
      repeat' first | with_reducible (refine Dec.Asks.bind (Dec.Asks.elem _ _) fun a => ?_) | split | exact Dec.Asks.pure _ |
      exact Dec.Asks.done _ | exact Dec.Asks.fail
    unfold Dec.head
    split
    · exact Dec.Asks.bind (seg _) fun id => Dec.Asks.bind (skip _) fun k => trivial
    · exact Dec.Asks.bind (skip _) fun id => Dec.Asks.bind (seg _) fun k => trivial
  · unfold Dec.cdefIdx
    split
    · trivial
    · trivial
    · rename_i n hn
      split
      · trivial
      · exact Dec.Asks.lit_bind (hc n hn) fun _ _ => trivial
  · unfold Dec.qIndex
    split
    · exact Dec.Asks.bind (Dec.Asks.delta _ _) fun _ => trivial
    · trivial
  · unfold Dec.lf
    split
    · exact Dec.Asks.lfDeltas _ _ _ _ _
    · trivial
  · unfold Dec.isInter
    repeat' first | with_reducible (refine Dec.Asks.bind (Dec.Asks.elem _ _) fun a => ?_) | split | exact Dec.Asks.pure _ |
      exact Dec.Asks.done _ | exact Dec.Asks.fail
  · split
    · exact Dec.Asks.bind (Dec.Asks.inter _ _ _ _ _) fun _ => trivial
    · trivial

theorem Dec.Asks.blocks {bank : Bank} (here : List Got → Here) (hc : ∀ g n, (here g).adjust.cdef = .due n → n ≤ 64) :
    ∀ (n : Nat) (got : List Got), (Dec.blocks here n got).Asks bank
  | 0, got => trivial
  | n + 1, got => Dec.Asks.bind (Dec.Asks.block _ (hc got)) fun _ => Dec.Asks.blocks here hc n _

/-- A row of blocks decoded from arbitrary bits is a row that an encoder could have coded. -/
theorem C140_blocks (here : List Dec.Got → Dec.Here) (hc : ∀ g n, (here g).adjust.cdef = .due n → n ≤ 64) (n : Nat)
    (bank : Bank) (hb : BankOk bank) (d d' : BoolCoder) (input rest : Bits) (sz : Nat) (got : List Dec.Got) (bank' : Bank)
    (h : (Dec.blocks here n []).onBits d input sz bank = some (got, d', rest, bank')) :
    ∃ ops used, OpsOk bank ops ∧ (Dec.blocks here n []).hears ops = some (got, []) ∧ input = used ++ rest ∧
      ∀ c, ∃ c' B extra, encodeSession c bank ops = some (c', B ++ extra, bank') ∧ B.length = used.length ∧
        num B ≤ num used ∧ extra.length ≤ 8 ∧ ∀ b ∈ extra, b = false :=
  C140_decoder _ bank hb (Dec.Asks.blocks here hc n []) d d' input rest sz got bank' h

/-! ### Concrete cases -/

/-- Forty set bits, of which 22 are read; the encoder writes something else for these values. -/
example : ((decodeSession .new (List.replicate 40 true) 5 [[16384, 32768, 0]] [.sym 0, .lit 3, .prob 200]).map
    fun x => (x.1, x.2.2.1.length)) = some ([[1], [7], [1]], 18) := by decide +kernel

example : BankOk [[16384, 32768, 0]] ∧ ∀ r ∈ [Req.sym 0, .lit 3, .prob 200], ReqOk [[16384, 32768, 0]] r := by
  refine ⟨?_, ?_⟩
  · intro cdf h
    rw [List.mem_singleton.1 h]
    exact ⟨[16384], 0, rfl, by simp [Inc], by decide, by decide, by decide⟩
  · simp [ReqOk]

example : ((encodeSession .new [[16384, 32768, 0]] [.sym 0 1, .lit 3 7, .prob 200 true]).map fun x => x.2.1.take 22) =
    some (List.replicate 6 true ++ [false, false, true] ++ List.replicate 13 false) := by decide +kernel

/-- The input may be too short. -/
example : decodeSession .new (List.replicate 15 true) 5 [[16384, 32768, 0]] [.sym 0, .lit 3] = none := by decide +kernel

end Av1
