import Verif.Lemmas.Session
import Verif.Spec.AnyInput

/-!
# The decoder on arbitrary input

`Sim` follows the encoder: whatever it codes is decoded.  `Co` follows the decoder: whatever it reads is what the encoder
would have been given, and the bits read lie in the interval the encoder would have reached.
-/

namespace Av1

theorem popBits_some : ∀ (n acc : Nat) (input : Bits) {v : Nat} {rest : Bits}, popBits n acc input = some (v, rest) →
    ∃ used, input = used ++ rest ∧ used.length = n ∧ v = acc * 2 ^ n + num used
  | 0, acc, input, v, rest, h => by
    simp only [popBits, Option.some.injEq, Prod.mk.injEq] at h
    exact ⟨[], by simp [h.2], rfl, by simp [h.1, num]⟩
  | n + 1, acc, [], v, rest, h => by simp [popBits] at h
  | n + 1, acc, b :: input, v, rest, h => by
    simp only [popBits] at h
    obtain ⟨used, h1, h2, h3⟩ := popBits_some n _ input h
    refine ⟨b :: used, by simp [h1], by simp [h2], ?_⟩
    rw [h3, num_cons, Nat.shiftLeft_eq, h2]
    ring

/-- Every value below the upper end lies in the interval of some symbol. -/
theorem exists_ivl {R : Int} (cnt v : Int) (hv : 0 ≤ v) : ∀ (body : List Int) (prev : Int), v < prev →
    ∃ s ≤ body.length, (ivl R prev (body ++ [32768, cnt]) s).2 ≤ v ∧ v < (ivl R prev (body ++ [32768, cnt]) s).1
  | [], prev, h => ⟨0, le_refl _, by simpa [ivl, bound_last] using hv, by simpa [ivl] using h⟩
  | c :: body, prev, h => by
    by_cases hc : v < bound R c
    · obtain ⟨s, h1, h2⟩ := exists_ivl cnt v hv body (bound R c) hc
      exact ⟨s + 1, by simpa using h1, by simpa [ivl] using h2⟩
    · exact ⟨0, by simp, by simp only [List.cons_append, ivl]; omega, by simpa [ivl] using h⟩

/-- The decoder stands inside the interval of the encoder; `X` is the number read so far. -/
structure Rel (O : Bits) (c : BoolCoder) (n X : Nat) (d : BoolCoder) : Prop where
  inv : EncInv O c n
  v : c.value < 65536
  r : 32768 ≤ c.range
  range : d.range = c.range
  value : d.value = c.range - 1 - (X - low O c)
  lo : low O c ≤ X
  hi : (X : Int) < low O c + c.range

/-- From every such state: with `K` bits the decoder action succeeds, and whenever it succeeds the encoder action described by
`E` (for the value and the tables that come out) is possible and leads to such a state again. -/
def Co {β γ : Type} (f : BoolCoder → Bits → Option (β × BoolCoder × Bits × γ)) (E : β → γ → BoolCoder → BoolCoder → Bits → Prop)
    (K : Nat) : Prop :=
  ∀ O c n X d, Rel O c n X d →
    (∀ input : Bits, K ≤ input.length → (f d input).isSome) ∧
    ∀ input v d' rest t, f d input = some (v, d', rest, t) →
      ∃ c' em used, E v t c c' em ∧ input = used ++ rest ∧ used.length ≤ K ∧
        Rel (O ++ em) c' (n + used.length) (X * 2 ^ used.length + num used) d'

theorem Co.mono {β γ : Type} {f g : BoolCoder → Bits → Option (β × BoolCoder × Bits × γ)}
    {E F : β → γ → BoolCoder → BoolCoder → Bits → Prop} {K L : Nat} (h : Co f E K) (hf : ∀ d i, g d i = f d i)
    (hE : ∀ v t c c' em, E v t c c' em → F v t c c' em) (hK : K ≤ L) : Co g F L := by
  intro O c n X d hr
  obtain ⟨h1, h2⟩ := h O c n X d hr
  refine ⟨fun i hi => by rw [hf]; exact h1 i (by omega), fun i v d' rest t hg => ?_⟩
  rw [hf] at hg
  obtain ⟨c', em, used, a1, a2, a3, a4⟩ := h2 i v d' rest t hg
  exact ⟨c', em, used, hE _ _ _ _ _ a1, a2, by omega, a4⟩

theorem Co.pure {β γ : Type} (v : β) (t : γ) :
    Co (fun d i => some (v, d, i, t)) (fun v' t' c c' em => v' = v ∧ t' = t ∧ c' = c ∧ em = []) 0 := by
  intro O c n X d hr
  refine ⟨fun _ _ => rfl, ?_⟩
  intro i v' d' rest t' h
  simp only [Option.some.injEq, Prod.mk.injEq] at h
  obtain ⟨rfl, rfl, rfl, rfl⟩ := h
  exact ⟨c, [], [], ⟨rfl, rfl, rfl, rfl⟩, rfl, by simp, by simpa [num] using hr⟩

theorem Co.seq {β γ δ ε : Type} {f : BoolCoder → Bits → Option (β × BoolCoder × Bits × γ)}
    {E : β → γ → BoolCoder → BoolCoder → Bits → Prop} {K L : Nat}
    {g : β → γ → BoolCoder → Bits → Option (δ × BoolCoder × Bits × ε)}
    {F : β → γ → δ → ε → BoolCoder → BoolCoder → Bits → Prop} (h : Co f E K)
    (hg : ∀ v t c c' em, E v t c c' em → Co (g v t) (F v t) L) :
    Co (fun d i => (f d i).bind fun x => g x.1 x.2.2.2 x.2.1 x.2.2.1)
      (fun w u c c' em => ∃ v t c1 e1 e2, E v t c c1 e1 ∧ F v t w u c1 c' e2 ∧ em = e1 ++ e2) (K + L) := by
  intro O c n X d hr
  obtain ⟨h1, h2⟩ := h O c n X d hr
  constructor
  · intro i hi
    obtain ⟨⟨v, d1, r1, t⟩, hx⟩ := Option.isSome_iff_exists.1 (h1 i (by omega))
    obtain ⟨c1, e1, u1, a1, a2, a3, a4⟩ := h2 _ _ _ _ _ hx
    obtain ⟨g1, -⟩ := hg _ _ _ _ _ a1 _ _ _ _ _ a4
    simp only [hx, Option.bind_some]
    apply g1
    rw [a2, List.length_append] at hi
    omega
  · intro i w d' rest u hw
    simp only [Option.bind_eq_some_iff] at hw
    obtain ⟨⟨v, d1, r1, t⟩, hx, hy⟩ := hw
    obtain ⟨c1, e1, u1, a1, a2, a3, a4⟩ := h2 _ _ _ _ _ hx
    obtain ⟨-, g2⟩ := hg _ _ _ _ _ a1 _ _ _ _ _ a4
    obtain ⟨c2, e2, u2, b1, b2, b3, b4⟩ := g2 _ _ _ _ _ hy
    simp only at b2
    refine ⟨c2, e1 ++ e2, u1 ++ u2, ⟨v, t, c1, e1, e2, a1, b1, rfl⟩, by rw [a2, b2, List.append_assoc], ?_, ?_⟩
    · rw [List.length_append]; omega
    · rw [List.length_append, num_append, ← List.append_assoc]
      have e : X * 2 ^ (u1.length + u2.length) + (num u1 * 2 ^ u2.length + num u2) =
          (X * 2 ^ u1.length + num u1) * 2 ^ u2.length + num u2 := by rw [pow_add]; ring
      rw [e, ← Nat.add_assoc]
      exact b4

/-- One adaptive symbol, with a table all of whose shares are at least `2 ^ (15 - K)`. -/
theorem co_symbol_wide {cdf : List Int} (hc : ValidCdf cdf) {K : Nat} (hK : K ≤ 15)
    (hw : ∀ (R : Int) (s : Nat), 32768 ≤ R → R < 65536 → s < symbols cdf →
      2 ^ (15 - K) ≤ (ivl R R cdf s).1 - (ivl R R cdf s).2) :
    Co (fun d i => decodeSymbol d i cdf)
      (fun s t c c' em => s < symbols cdf ∧ encodeSymbol c cdf s = some (c', em, t)) K := by
  intro O c n X d hr
  obtain ⟨hi, hcv, hcr, hdr, hdv, hlo, hhi⟩ := hr
  have hiv : ∃ s < symbols cdf, (ivl d.range d.range cdf s).2 ≤ d.value ∧ d.value < (ivl d.range d.range cdf s).1 := by
    obtain ⟨body, cnt, rfl, -⟩ := hc
    obtain ⟨s, h1, h2⟩ := exists_ivl (R := d.range) cnt d.value (by omega) body d.range (by omega)
    exact ⟨s, by simp [symbols]; omega, h2⟩
  obtain ⟨s, hs, s1, s2⟩ := hiv
  obtain ⟨c', em, k, cdf', a1, a2, a3, a4, a5, a6, a7, -, -, a8, a9, a10, a11, a12⟩ := encodeSymbol_spec hc hs hi hcv hcr
  have hk1 : 32768 ≤ ((ivl d.range d.range cdf s).1 - (ivl d.range d.range cdf s).2) * 2 ^ k := by rw [hdr, ← a9]; exact a6
  have hk2 : ((ivl d.range d.range cdf s).1 - (ivl d.range d.range cdf s).2) * 2 ^ k < 65536 := by rw [hdr, ← a9]; exact a4.r1
  have a3 : k ≤ K := by
    by_contra hn
    have w := hw d.range s (by omega) (by rw [hdr]; exact hi.r1) hs
    have e : (65536 : Int) = 2 ^ (15 - K) * 2 ^ (K + 1) := by
      rw [← pow_add, show 15 - K + (K + 1) = 16 by omega]; norm_num
    have l1 : (2 : Int) ^ (K + 1) ≤ 2 ^ k := pow_le_pow_right₀ (by norm_num) (by omega)
    have l2 : (2 : Int) ^ (15 - K) * 2 ^ (K + 1) ≤
        ((ivl d.range d.range cdf s).1 - (ivl d.range d.range cdf s).2) * 2 ^ k :=
      mul_le_mul w l1 (by positivity) (le_trans (by positivity) w)
    omega
  have step := fun (I rest : Bits) (hI : I.length = k) =>
    decodeSymbol_spec hc hs (d := d) (by rw [hdr]; exact hcr) (by rw [hdr]; exact hi.r1) s1 s2 hk1 hk2 I rest hI
  constructor
  · intro input hin
    obtain ⟨t, -, h⟩ := step (input.take k) (input.drop k) (by rw [List.length_take]; omega)
    rw [List.take_append_drop] at h
    simp only [h, Option.isSome_some]
  · intro input v d' rest t h
    simp only at h
    -- enough input, or it would have panicked
    have hlen : k ≤ input.length := by
      by_contra hn
      obtain ⟨t', -, h'⟩ := step (List.replicate k false) [] (by simp)
      simp only [decodeSymbol, Option.bind_eq_bind, Option.bind_eq_some_iff, Option.some.injEq, Prod.mk.injEq] at h h'
      obtain ⟨⟨s0, p0, q0⟩, b1, m, b2, ⟨nd, r0⟩, b3, -⟩ := h
      obtain ⟨⟨s1', p1, q1⟩, c1, m1, c2, ⟨nd1, r1⟩, c3, u, -, -, -, c4, -⟩ := h'
      rw [b1] at c1
      cases c1
      rw [b2] at c2
      cases c2
      obtain ⟨used, e1, e2, -⟩ := popBits_some _ _ _ c3
      obtain ⟨used', e3, e4, -⟩ := popBits_some _ _ _ b3
      have l1 := congrArg List.length e1
      have l3 := congrArg List.length e3
      simp only at c4
      rw [c4] at l1
      simp only [List.length_append, List.length_replicate, List.length_nil, e2, e4] at l1 l3
      omega
    obtain ⟨t', ht', h'⟩ := step (input.take k) (input.drop k) (by rw [List.length_take]; omega)
    rw [List.take_append_drop, h] at h'
    simp only [Option.some.injEq, Prod.mk.injEq] at h'
    obtain ⟨rfl, rfl, rfl, rfl⟩ := h'
    have hl : (input.take k).length = k := by rw [List.length_take]; omega
    rw [ht'] at a2
    cases a2
    refine ⟨c', em, input.take k, ⟨hs, a1⟩, (List.take_append_drop k input).symm, by omega, ?_⟩
    have hp : (0 : Int) < 2 ^ k := by positivity
    have hnum : (num (input.take k) : Int) < 2 ^ k := by
      have := num_lt (input.take k)
      rw [hl] at this
      exact_mod_cast this
    rw [hl]
    generalize hiv : ivl d.range d.range cdf v = iv at *
    rw [hdr] at hiv
    rw [hiv] at a8 a9 a10 a11 a12
    obtain ⟨left, right⟩ := iv
    simp only at *
    refine ⟨a4, a5, a6, a9.symm, ?_, ?_, ?_⟩
    · rw [a8, a9, hdv]; push_cast; ring
    · rw [a8]; push_cast
      have : (low O c + (c.range - left)) * 2 ^ k ≤ X * 2 ^ k := by
        apply mul_le_mul_of_nonneg_right _ (le_of_lt hp); omega
      have h0 : (0 : Int) ≤ num (input.take k) := by positivity
      omega
    · rw [a8, a9, ← add_mul]; push_cast
      have : ((X : Int) + 1) * 2 ^ k ≤ (low O c + (c.range - left) + (left - right)) * 2 ^ k := by
        apply mul_le_mul_of_nonneg_right _ (le_of_lt hp); omega
      have e : ((X : Int) + 1) * 2 ^ k = X * 2 ^ k + 2 ^ k := by ring
      omega

/-- One adaptive symbol. -/
theorem co_symbol {cdf : List Int} (hc : ValidCdf cdf) :
    Co (fun d i => decodeSymbol d i cdf)
      (fun s t c c' em => s < symbols cdf ∧ encodeSymbol c cdf s = some (c', em, t)) 15 := by
  refine co_symbol_wide hc (le_refl _) fun R s h1 h2 hs => ?_
  obtain ⟨body, cnt, rfl, hinc, h0, h32, hlen⟩ := hc
  have hs' : s ≤ body.length := by simp [symbols] at hs; omega
  obtain ⟨-, h, -⟩ := ivl_spec h1 cnt body 0 R s hinc hs' (fun c hc => bound_lt_range h1 hc)
  simp only [Nat.sub_self, pow_zero]
  omega

theorem co_symbolp {p : Nat} (hp : p < 256) {K : Nat} (h : Co (fun d i => decodeSymbol d i (probCdf p))
      (fun s t c c' em => s < symbols (probCdf p) ∧ encodeSymbol c (probCdf p) s = some (c', em, t)) K) :
    Co (fun d i => (decodeSymbolp d i p).map fun x => (x.1, x.2.1, x.2.2, ()))
      (fun s _ c c' em => s < 2 ∧ encodeSymbolp c s p = some (c', em)) K := by
  refine (h.seq (g := fun s _ d i => some (s, d, i, ()))
    fun s t _ _ _ _ => Co.pure s ()).mono ?_ ?_ (le_refl _)
  · intro d i
    cases hd : decodeSymbol d i (probCdf p) <;> simp [decodeSymbolp, hd]
  · rintro v t c c' em ⟨s, u, c1, e1, e2, ⟨h1, h2⟩, ⟨rfl, -, rfl, rfl⟩, rfl⟩
    exact ⟨h1, by simp [encodeSymbolp, h2]⟩

theorem co_symbols : ∀ (n : Nat) (cdf : List Int), ValidCdf cdf → symbols cdf = 2 →
    Co (fun d i => (decodeSymbolsGo d cdf n i).map fun x => (x.1, x.2.1, x.2.2, ()))
      (fun v _ c c' em => ∃ bs : List Bool, bs.length = n ∧ v = bs.map Bool.toNat ∧
        encodeSymbolsGo c cdf v = some (c', em)) (15 * n)
  | 0, cdf, _, _ => by
    refine (Co.pure [] ()).mono (fun d i => by simp [decodeSymbolsGo]) ?_ (le_refl _)
    rintro v t c c' em ⟨rfl, -, rfl, rfl⟩
    exact ⟨[], rfl, rfl, rfl⟩
  | n + 1, cdf, hc, hs => by
    refine ((co_symbol hc).seq (L := 15 * n)
      (g := fun s t d i => ((decodeSymbolsGo d t n i).map fun x => (x.1, x.2.1, x.2.2, ())).bind
        fun x => some (s :: x.1, x.2.1, x.2.2.1, ()))
      (F := fun s t v _ c c' em => ∃ bs : List Bool, bs.length = n ∧ v = s :: bs.map Bool.toNat ∧
        encodeSymbolsGo c t (bs.map Bool.toNat) = some (c', em)) ?_).mono ?_ ?_ (by omega)
    · rintro s t c c' em ⟨h1, h2⟩
      obtain ⟨t', ht, hv, hl⟩ := adapt_valid hc s
      have := encodeSymbol_adapt h2
      rw [ht] at this
      obtain rfl := Option.some.inj this
      refine ((co_symbols n t' hv (by unfold symbols at *; omega)).seq (L := 0)
        (g := fun v _ d i => some (s :: v, d, i, ())) fun v t _ _ _ _ => Co.pure _ ()).mono (fun d i => rfl) ?_ (le_refl _)
      rintro v _ c c' em ⟨w, _, c1, e1, e2, ⟨bs, b1, rfl, b3⟩, ⟨rfl, -, rfl, rfl⟩, rfl⟩
      exact ⟨bs, b1, rfl, by simpa using b3⟩
    · intro d i
      cases hd : decodeSymbol d i cdf with
      | none => simp [decodeSymbolsGo, hd]
      | some x => cases hd' : decodeSymbolsGo x.2.1 x.2.2.2 n x.2.2.1 <;> simp [decodeSymbolsGo, hd, hd']
    · rintro v _ c c' em ⟨s, t, c1, e1, e2, ⟨h1, h2⟩, ⟨bs, b1, rfl, b3⟩, rfl⟩
      rw [hs] at h1
      refine ⟨decide (s = 1) :: bs, by simp [b1], ?_, ?_⟩
      · have : s = 0 ∨ s = 1 := by omega
        rcases this with rfl | rfl <;> simp
      · simp [encodeSymbolsGo, h2, b3]

/-- A bit of a literal takes at most one bit. -/
theorem co_bit : Co (fun d i => (decodeSymbolp d i (128 : Nat)).map fun x => (x.1, x.2.1, x.2.2, ()))
      (fun s _ c c' em => s < 2 ∧ encodeSymbolp c s (128 : Nat) = some (c', em)) 1 := by
  refine co_symbolp (by decide) (co_symbol_wide (probCdf_valid (by decide)) (by decide) fun R s h1 h2 hs => ?_)
  rw [probCdf_symbols] at hs
  have e : probCdf ((128 : Nat) : Int) = [16384, 32768, 0] := by decide
  have hb : bound R 16384 = R / 256 * 128 := by
    unfold bound; rw [shr_def, shr_def]; norm_num; omega
  have hb2 : bound R 32768 = 0 := by unfold bound; rw [shr_def, shr_def]; norm_num
  have : s = 0 ∨ s = 1 := by omega
  rcases this with rfl | rfl
  · rw [e]; simp only [ivl, hb]; norm_num; omega
  · rw [e]; simp only [ivl, hb, hb2]; norm_num; omega

theorem co_literal : ∀ (n acc : Nat), n ≤ 64 →
    Co (fun d i => (decodeLiteral d acc n i).map fun x => (x.1, x.2.1, x.2.2, ()))
      (fun v _ c c' em => ∃ w < 2 ^ n, v = acc * 2 ^ n + w ∧ ∀ u, u % 2 ^ n = w → encodeLiteral c u n = some (c', em)) n
  | 0, acc, _ => by
    refine (Co.pure acc ()).mono (fun d i => by simp [decodeLiteral]) ?_ (le_refl _)
    rintro v t c c' em ⟨rfl, -, rfl, rfl⟩
    exact ⟨0, by simp, by simp, fun u _ => rfl⟩
  | n + 1, acc, hn => by
    refine (co_bit.seq (L := n)
      (g := fun s _ d i => (decodeLiteral d ((acc <<< 1) + s) n i).map fun x => (x.1, x.2.1, x.2.2, ()))
      (F := fun s _ v _ c c' em => ∃ w < 2 ^ n, v = ((acc <<< 1) + s) * 2 ^ n + w ∧
        ∀ u, u % 2 ^ n = w → encodeLiteral c u n = some (c', em))
      fun s t _ _ _ _ => co_literal n _ (by omega)).mono ?_ ?_ (by omega)
    · intro d i
      cases hd : decodeSymbolp d i (128 : Nat) with
      | none => have hd' := hd; push_cast at hd'; simp [decodeLiteral, hd']
      | some x => have hd' := hd; push_cast at hd'; simp [decodeLiteral, hd']
    · rintro v _ c c' em ⟨s, t, c1, e1, e2, ⟨h1, h2⟩, ⟨w, w1, rfl, w3⟩, rfl⟩
      have hp : 0 < 2 ^ n := by positivity
      refine ⟨s * 2 ^ n + w, ?_, ?_, ?_⟩
      · have : s = 0 ∨ s = 1 := by omega
        rcases this with rfl | rfl <;> rw [pow_succ] <;> omega
      · rw [Nat.shiftLeft_eq, pow_succ]; ring
      · intro u hu
        have hu1 : u % 2 ^ n = w := by
          have : u % 2 ^ (n + 1) % 2 ^ n = u % 2 ^ n := Nat.mod_mod_of_dvd u (pow_dvd_pow 2 (by omega))
          rw [← this, hu, Nat.mul_comm, Nat.mul_add_mod, Nat.mod_eq_of_lt w1]
        have hu2 : (u >>> n) &&& 1 = s := by
          rw [Nat.and_one_is_mod, Nat.shiftRight_eq_div_pow]
          have : u / 2 ^ n % 2 = u % 2 ^ (n + 1) / 2 ^ n := by
            rw [pow_succ, Nat.mod_mul_right_div_self]
          rw [this, hu, Nat.mul_comm, Nat.mul_add_div hp, Nat.div_eq_of_lt w1, Nat.add_zero]
        push_cast at h2
        have hn' : ¬ n ≥ 64 := by omega
        simp [encodeLiteral, hn', hu2, h2, w3 u hu1]

/-! ## Calls -/

theorem ReqOk.mono {a b : Bank} (h : SameShape a b) {r : Req} (hr : ReqOk a r) : ReqOk b r := by
  cases r with
  | sym t =>
    have := congrArg List.length h
    simp only [List.length_map] at this
    simp only [ReqOk] at *
    omega
  | _ => exact hr

theorem encodeOp_bank {c : BoolCoder} {bank : Bank} (hb : BankOk bank) {op : Op} {x} (h : encodeOp c bank op = some x) :
    BankOk x.2.2 ∧ SameShape bank x.2.2 := by
  cases op with
  | sym t s =>
    simp only [encodeOp, Option.bind_eq_bind, Option.bind_eq_some_iff, Option.some.injEq] at h
    obtain ⟨cdf, h1, ⟨c1, e1, t1⟩, h2, rfl⟩ := h
    obtain ⟨t', ht, hv, hl⟩ := adapt_valid (hb cdf (List.mem_of_getElem? h1)) s
    have := encodeSymbol_adapt h2
    rw [ht] at this
    obtain rfl := Option.some.inj this
    refine ⟨?_, ?_⟩
    · intro x hx
      rcases List.mem_or_eq_of_mem_set hx with h | h
      · exact hb x h
      · rw [h]; exact hv
    · unfold SameShape
      simp only
      rw [List.map_set, hl]
      apply List.ext_getElem?
      intro i
      rw [List.getElem?_set]
      split
      · rename_i hti
        obtain ⟨hlt, -⟩ := List.getElem?_eq_some_iff.1 h1
        rw [← hti, List.getElem?_map, h1]
        simp [hlt]
      · rfl
  | prob p b =>
    simp only [encodeOp, Option.bind_eq_bind, Option.bind_eq_some_iff, Option.some.injEq] at h
    obtain ⟨y, -, rfl⟩ := h
    exact ⟨hb, rfl⟩
  | probs p bs =>
    simp only [encodeOp, Option.bind_eq_bind, Option.bind_eq_some_iff, Option.some.injEq] at h
    obtain ⟨y, -, rfl⟩ := h
    exact ⟨hb, rfl⟩
  | lit n v =>
    simp only [encodeOp, Option.bind_eq_bind, Option.bind_eq_some_iff, Option.some.injEq] at h
    obtain ⟨y, -, rfl⟩ := h
    exact ⟨hb, rfl⟩

/-- One call. -/
theorem co_op {bank : Bank} (hb : BankOk bank) {r : Req} (hr : ReqOk bank r) :
    Co (fun d i => decodeOp d i bank r)
      (fun v b c c' em => ∃ op : Op, op.req = r ∧ op.val = v ∧ OpOk bank op ∧ encodeOp c bank op = some (c', em, b))
      r.worst := by
  cases r with
  | sym t =>
    have hg : bank[t]? = some bank[t] := List.getElem?_eq_getElem hr
    refine ((co_symbol (hb _ (List.getElem_mem hr))).seq (L := 0) (g := fun s u d i => some ([s], d, i, bank.set t u))
      fun s u _ _ _ _ => Co.pure _ _).mono ?_ ?_ (le_refl _)
    · intro d i
      simp only [decodeOp, hg, Option.bind_eq_bind, Option.bind_some]
    · rintro v _ c c' em ⟨s, u, c1, e1, e2, ⟨h1, h2⟩, ⟨rfl, rfl, rfl, rfl⟩, rfl⟩
      exact ⟨.sym t s, rfl, rfl, ⟨_, hg, h1⟩, by simp [encodeOp, hg, h2]⟩
  | prob p =>
    refine ((co_symbolp hr (co_symbol (probCdf_valid hr))).seq (L := 0) (g := fun s _ d i => some ([s], d, i, bank))
      fun s u _ _ _ _ => Co.pure _ _).mono ?_ ?_ (le_refl _)
    · intro d i
      cases hd : decodeSymbolp d i p <;> simp [decodeOp, hd]
    · rintro v _ c c' em ⟨s, u, c1, e1, e2, ⟨h1, h2⟩, ⟨rfl, rfl, rfl, rfl⟩, rfl⟩
      have hs : (decide (s = 1)).toNat = s := by
        have : s = 0 ∨ s = 1 := by omega
        rcases this with rfl | rfl <;> rfl
      exact ⟨.prob p (decide (s = 1)), rfl, by simp only [Op.val, hs], hr, by simp [encodeOp, hs, h2]⟩
  | probs p n =>
    refine ((co_symbols n _ (probCdf_valid hr) (probCdf_symbols _)).seq (L := 0) (g := fun v _ d i => some (v, d, i, bank))
      fun s u _ _ _ _ => Co.pure _ _).mono ?_ ?_ (le_refl _)
    · intro d i
      cases hd : decodeSymbolsGo d (probCdf p) n i <;> simp [decodeOp, decodeSymbols, hd]
    · rintro v _ c c' em ⟨s, u, c1, e1, e2, ⟨bs, b1, rfl, b3⟩, ⟨rfl, rfl, rfl, rfl⟩, rfl⟩
      exact ⟨.probs p bs, by simp [Op.req, b1], rfl, hr, by simp [encodeOp, encodeSymbols, b3]⟩
  | lit n =>
    refine ((co_literal n 0 hr).seq (L := 0) (g := fun v _ d i => some ([v], d, i, bank))
      fun s u _ _ _ _ => Co.pure _ _).mono ?_ ?_ (le_refl _)
    · intro d i
      cases hd : decodeLiteral d 0 n i <;> simp [decodeOp, hd]
    · rintro v _ c c' em ⟨s, u, c1, e1, e2, ⟨w, w1, rfl, w3⟩, ⟨rfl, rfl, rfl, rfl⟩, rfl⟩
      refine ⟨.lit n w, rfl, by simp [Op.val], ⟨hr, w1⟩, ?_⟩
      simp [encodeOp, w3 w (Nat.mod_eq_of_lt w1)]

/-- Calls. -/
theorem co_ops : ∀ (rs : List Req) (bank : Bank), BankOk bank → (∀ r ∈ rs, ReqOk bank r) →
    Co (fun d i => decodeOps d i bank rs)
      (fun vs b c c' em => ∃ ops : List Op, ops.map Op.req = rs ∧ ops.map Op.val = vs ∧ OpsOk bank ops ∧
        encodeOps c bank ops = some (c', em, b)) (rs.map Req.worst).sum
  | [], bank, _, _ => by
    refine (Co.pure [] bank).mono (fun d i => by simp [decodeOps]) ?_ (le_refl _)
    rintro v t c c' em ⟨rfl, rfl, rfl, rfl⟩
    exact ⟨[], rfl, rfl, by simp [OpsOk], rfl⟩
  | r :: rs, bank, hb, hr => by
    refine ((co_op hb (hr r (by simp))).seq (L := (rs.map Req.worst).sum)
      (g := fun v b d i => (decodeOps d i b rs).bind fun x => some (v :: x.1, x.2.1, x.2.2.1, x.2.2.2))
      (F := fun v b vs b' c c' em => ∃ ops : List Op, ops.map Op.req = rs ∧ v :: ops.map Op.val = vs ∧ OpsOk bank ops ∧
        encodeOps c b ops = some (c', em, b')) ?_).mono ?_ ?_ ?_
    · rintro v b c c' em ⟨op, rfl, rfl, o3, o4⟩
      obtain ⟨g1, g2⟩ := encodeOp_bank hb o4
      refine ((co_ops rs b g1 fun r h => (hr r (by simp [h])).mono g2).seq (L := 0)
        (g := fun w b' d i => some (op.val :: w, d, i, b')) fun w b' _ _ _ _ => Co.pure _ _).mono (fun d i => rfl) ?_
        (le_refl _)
      rintro _ _ c c' em ⟨w, b', c1, e1, e2, ⟨ops, p1, p2, p3, p4⟩, ⟨rfl, rfl, rfl, rfl⟩, rfl⟩
      exact ⟨ops, p1, by rw [p2], fun o ho => (p3 o ho).mono g2.symm, by simpa using p4⟩
    · intro d i
      simp only [decodeOps, Option.bind_eq_bind]
    · rintro vs b c c' em ⟨v, b1, c1, e1, e2, ⟨op, o1, rfl, o3, o4⟩, ⟨ops, p1, rfl, p3, p4⟩, rfl⟩
      refine ⟨op :: ops, by simp [o1, p1], by simp, ?_, by simp [encodeOps, o4, p4]⟩
      intro o ho
      rcases List.mem_cons.1 ho with rfl | h
      · exact o3
      · exact p3 o h
    · simp

/-- The start of a session. -/
theorem rel_start (c d : BoolCoder) (input : Bits) {sz : Nat} {d1 : BoolCoder} {rest : Bits}
    (h : initDecoder d input sz = some (d1, rest)) :
    ∃ used, input = used ++ rest ∧ used.length = 15 ∧ Rel [] (initEncoder c) 0 (num used) d1 := by
  unfold initDecoder at h
  simp only [Option.bind_eq_bind, Option.bind_eq_some_iff, Option.some.injEq, Prod.mk.injEq] at h
  obtain ⟨⟨v, r⟩, h1, rfl, rfl⟩ := h
  obtain ⟨used, rfl, h3, rfl⟩ := popBits_some _ _ _ h1
  have hl0 : low [] (initEncoder c) = 0 := by simp [low, pend, initEncoder]
  have hr0 : (initEncoder c).range = 32768 := rfl
  have hlt : num used < 2 ^ 15 := by have := num_lt used; rwa [h3] at this
  refine ⟨used, rfl, h3, initEncoder_inv c, by simp [initEncoder], by rw [hr0], rfl, ?_, ?_, ?_⟩
  · have hx := xor32_shift 15 (num used) 0 hlt (by omega) (by norm_num)
    rw [xor32_comm] at hx
    have e1 : (((1 <<< 15 : Nat) : Int)) = (0 + 1) * 2 ^ 15 := by decide
    rw [hl0, hr0]
    simp only [Nat.zero_mul, Nat.zero_add]
    rw [e1, hx]
    norm_num
  · rw [hl0]; exact Int.natCast_nonneg _
  · rw [hl0, hr0]
    have : (2 : Nat) ^ 15 = 32768 := by norm_num
    omega

/-- The bits shifted out are determined by the state. -/
theorem EncInv.unique {O : Bits} {c : BoolCoder} {n m : Nat} (h : EncInv O c n) (h' : EncInv O c m) : n = m := by
  cases hf : c.first with
  | true => rw [(h.fst hf).2.2.2.1, (h'.fst hf).2.2.2.1]
  | false => rw [← (h.nfst hf).1, ← (h'.nfst hf).1]

/-- A call is determined by its request and value. -/
theorem Op.ext_req {a b : Op} (h1 : a.req = b.req) (h2 : a.val = b.val) : a = b := by
  have hb : ∀ x y : Bool, x.toNat = y.toNat → x = y := by decide
  cases a <;> cases b <;> simp only [Op.req, Op.val, Req.sym.injEq, Req.prob.injEq, Req.probs.injEq, Req.lit.injEq,
    List.cons.injEq, and_true, reduceCtorEq] at h1 h2
  · rw [h1, h2]
  · rw [h1, hb _ _ h2]
  · rw [h1.1, (List.map_inj_right hb).1 h2]
  · rw [h1, h2]

theorem ops_ext_req : ∀ {a b : List Op}, a.map Op.req = b.map Op.req → a.map Op.val = b.map Op.val → a = b
  | [], [], _, _ => rfl
  | [], _ :: _, h, _ => by simp at h
  | _ :: _, [], h, _ => by simp at h
  | x :: a, y :: b, h1, h2 => by
    simp only [List.map_cons, List.cons.injEq] at h1 h2
    rw [Op.ext_req h1.1 h2.1, ops_ext_req h1.2 h2.2]

/-! ## The decoder looks at no bit that it does not take -/

/-- Whatever follows the bits taken, the result is the same. -/
def Local {β γ : Type} (f : BoolCoder → Bits → Option (β × BoolCoder × Bits × γ)) : Prop :=
  ∀ d input v d' rest t, f d input = some (v, d', rest, t) →
    ∃ used, input = used ++ rest ∧ ∀ rest', f d (used ++ rest') = some (v, d', rest', t)

theorem Local.congr {β γ : Type} {f g : BoolCoder → Bits → Option (β × BoolCoder × Bits × γ)} (h : Local f)
    (hf : ∀ d i, g d i = f d i) : Local g := by
  intro d input v d' rest t hg
  rw [hf] at hg
  obtain ⟨used, h1, h2⟩ := h d input v d' rest t hg
  exact ⟨used, h1, fun r => by rw [hf]; exact h2 r⟩

theorem Local.pure {β γ : Type} (v : β) (t : γ) : Local (fun d i => some (v, d, i, t)) := by
  intro d input v' d' rest t' h
  simp only [Option.some.injEq, Prod.mk.injEq] at h
  obtain ⟨rfl, rfl, rfl, rfl⟩ := h
  exact ⟨[], rfl, fun r => rfl⟩

theorem Local.seq {β γ δ ε : Type} {f : BoolCoder → Bits → Option (β × BoolCoder × Bits × γ)}
    {g : β → γ → BoolCoder → Bits → Option (δ × BoolCoder × Bits × ε)} (h : Local f) (hg : ∀ v t, Local (g v t)) :
    Local (fun d i => (f d i).bind fun x => g x.1 x.2.2.2 x.2.1 x.2.2.1) := by
  intro d input w d' rest u hw
  simp only [Option.bind_eq_some_iff] at hw
  obtain ⟨⟨v, d1, r1, t⟩, hx, hy⟩ := hw
  simp only at hy
  obtain ⟨u1, rfl, h2⟩ := h _ _ _ _ _ _ hx
  obtain ⟨u2, rfl, h4⟩ := hg v t _ _ _ _ _ _ hy
  refine ⟨u1 ++ u2, by rw [List.append_assoc], fun r => ?_⟩
  simp only [List.append_assoc, h2, Option.bind_some, h4]

theorem local_symbol (cdf : List Int) : Local (fun d i => decodeSymbol d i cdf) := by
  intro d input v d' rest t h
  simp only [decodeSymbol, Option.bind_eq_bind, Option.bind_eq_some_iff, Option.some.injEq, Prod.mk.injEq] at h
  obtain ⟨⟨s, p, q⟩, h1, m, h2, ⟨nd, r⟩, h3, u, h4, rfl, rfl, rfl, rfl⟩ := h
  obtain ⟨used, e1, e2, e3⟩ := popBits_some _ _ _ h3
  refine ⟨used, e1, fun r' => ?_⟩
  have hp := popBits_append used r' 0
  rw [e2, ← e3] at hp
  simp only at h2
  simp only [decodeSymbol, h1, h2, hp, h4, Option.bind_eq_bind, Option.bind_some]

theorem local_symbolp (p : Int) : Local (fun d i => (decodeSymbolp d i p).map fun x => (x.1, x.2.1, x.2.2, ())) := by
  refine ((local_symbol (probCdf p)).seq (g := fun s _ d i => some (s, d, i, ())) fun s t => Local.pure s ()).congr ?_
  intro d i
  cases hd : decodeSymbol d i (probCdf p) <;> simp [decodeSymbolp, hd]

theorem local_symbols : ∀ (n : Nat) (cdf : List Int),
    Local (fun d i => (decodeSymbolsGo d cdf n i).map fun x => (x.1, x.2.1, x.2.2, ()))
  | 0, cdf => (Local.pure [] ()).congr fun d i => by simp [decodeSymbolsGo]
  | n + 1, cdf => by
    refine ((local_symbol cdf).seq
      (g := fun s t d i => ((decodeSymbolsGo d t n i).map fun x => (x.1, x.2.1, x.2.2, ())).bind
        fun x => some (s :: x.1, x.2.1, x.2.2.1, ()))
      fun s t => ((local_symbols n t).seq (g := fun v _ d i => some (s :: v, d, i, ())) fun v t => Local.pure _ _).congr
        fun d i => rfl).congr ?_
    intro d i
    cases hd : decodeSymbol d i cdf with
    | none => simp [decodeSymbolsGo, hd]
    | some x => cases hd' : decodeSymbolsGo x.2.1 x.2.2.2 n x.2.2.1 <;> simp [decodeSymbolsGo, hd, hd']

theorem local_literal : ∀ (n acc : Nat),
    Local (fun d i => (decodeLiteral d acc n i).map fun x => (x.1, x.2.1, x.2.2, ()))
  | 0, acc => (Local.pure acc ()).congr fun d i => by simp [decodeLiteral]
  | n + 1, acc => by
    refine ((local_symbolp 128).seq
      (g := fun s _ d i => (decodeLiteral d ((acc <<< 1) + s) n i).map fun x => (x.1, x.2.1, x.2.2, ()))
      fun s t => local_literal n _).congr ?_
    intro d i
    cases hd : decodeSymbolp d i 128 <;> simp [decodeLiteral, hd]

theorem local_op (bank : Bank) (r : Req) : Local (fun d i => decodeOp d i bank r) := by
  cases r with
  | sym t =>
    cases hg : bank[t]? with
    | none => intro d i v d' rest t h; simp [decodeOp, hg] at h
    | some cdf =>
      refine ((local_symbol cdf).seq (g := fun s u d i => some ([s], d, i, bank.set t u)) fun s u => Local.pure _ _).congr ?_
      intro d i
      simp only [decodeOp, hg, Option.bind_eq_bind, Option.bind_some]
  | prob p =>
    refine ((local_symbolp p).seq (g := fun s _ d i => some ([s], d, i, bank)) fun s u => Local.pure _ _).congr ?_
    intro d i
    cases hd : decodeSymbolp d i p <;> simp [decodeOp, hd]
  | probs p n =>
    refine ((local_symbols n (probCdf p)).seq (g := fun v _ d i => some (v, d, i, bank)) fun s u => Local.pure _ _).congr ?_
    intro d i
    cases hd : decodeSymbolsGo d (probCdf p) n i <;> simp [decodeOp, decodeSymbols, hd]
  | lit n =>
    refine ((local_literal n 0).seq (g := fun v _ d i => some ([v], d, i, bank)) fun s u => Local.pure _ _).congr ?_
    intro d i
    cases hd : decodeLiteral d 0 n i <;> simp [decodeOp, hd]

theorem local_ops : ∀ (rs : List Req) (bank : Bank), Local (fun d i => decodeOps d i bank rs)
  | [], bank => (Local.pure [] bank).congr fun d i => by simp [decodeOps]
  | r :: rs, bank => by
    refine ((local_op bank r).seq
      (g := fun v b d i => (decodeOps d i b rs).bind fun x => some (v :: x.1, x.2.1, x.2.2.1, x.2.2.2))
      fun v b => ((local_ops rs b).seq (g := fun w b' d i => some (v :: w, d, i, b')) fun w b' => Local.pure _ _).congr
        fun d i => rfl).congr ?_
    intro d i
    simp only [decodeOps, Option.bind_eq_bind]

end Av1
