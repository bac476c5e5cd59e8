import Verif.Spec.Parser
import Verif.Model.Emit
import Verif.Lemmas.Codes

namespace Av1

/-- The emission `x` is binary and is read by `p` as `v`. -/
def Writes {α : Type} (x : Option Raw) (p : P α) (v : α) : Prop := ∃ e, x = some (raw e) ∧ Reads p e v

theorem raw_append (a b : Bits) : raw (a ++ b) = raw a ++ raw b := by simp [raw]

theorem raw_inj {a b : Bits} (h : raw a = raw b) : a = b := by
  induction a generalizing b with
  | nil => cases b with
    | nil => rfl
    | cons => simp [raw] at h
  | cons x a ih =>
    cases b with
    | nil => simp [raw] at h
    | cons y b =>
      simp only [raw, List.map_cons, List.cons.injEq] at h
      have hxy : x = y := by cases x <;> cases y <;> simp at h ⊢
      rw [hxy, ih h.2]

/-- Equal emissions carry equal values. -/
theorem Writes.unique {α : Type} {x : Option Raw} {p : P α} {v w : α} (h1 : Writes x p v) (h2 : Writes x p w) :
    v = w := by
  obtain ⟨a, ha, ra⟩ := h1
  obtain ⟨b, hb, rb⟩ := h2
  rw [ha] at hb
  obtain rfl := raw_inj (Option.some.inj hb)
  exact ra.unique rb

theorem Reads.bind {α β : Type} {p : P α} {g : α → P β} {a b : Bits} {v : α} {w : β} (h1 : Reads p a v)
    (h2 : Reads (g v) b w) : Reads (p >>= g) (a ++ b) w := by
  intro rest
  show (p (a ++ b ++ rest) >>= fun x => g x.1 x.2) = _
  rw [List.append_assoc, h1]
  exact h2 rest

theorem Reads.pure {α : Type} (v : α) : Reads (Pure.pure v : P α) [] v := fun _ => rfl

theorem cat_nil : cat [] = some [] := rfl

theorem cat_cons (x : Option Raw) (xs : List (Option Raw)) :
    cat (x :: xs) = x.bind fun a => (cat xs).bind fun b => some (a ++ b) := by
  cases x <;> rfl

theorem cat_append (a b : List (Option Raw)) :
    cat (a ++ b) = (cat a).bind fun x => (cat b).bind fun y => some (x ++ y) := by
  induction a with
  | nil => simp [cat_nil]
  | cons x a ih =>
    rw [List.cons_append, cat_cons, cat_cons, ih]
    cases x <;> cases cat a <;> cases cat b <;> simp

theorem cat_single (x : Option Raw) : cat [x] = x := by cases x <;> simp [cat_cons, cat_nil]

theorem cat_none {l : List (Option Raw)} (h : none ∈ l) : cat l = none := by
  induction l with
  | nil => simp at h
  | cons x l ih =>
    rw [cat_cons]
    rcases List.mem_cons.1 h with h | h
    · rw [← h]; rfl
    · rw [ih h]; cases x <;> rfl

theorem Writes.pure {α : Type} (v : α) : Writes (cat []) (Pure.pure v : P α) v := ⟨[], rfl, Reads.pure v⟩

theorem Writes.cons {α β : Type} {x : Option Raw} {xs : List (Option Raw)} {p : P α} {g : α → P β} {v : α} {w : β}
    (h1 : Writes x p v) (h2 : Writes (cat xs) (g v) w) : Writes (cat (x :: xs)) (p >>= g) w := by
  obtain ⟨a, ha, ra⟩ := h1
  obtain ⟨b, hb, rb⟩ := h2
  refine ⟨a ++ b, ?_, ra.bind rb⟩
  rw [cat_cons, ha, hb, raw_append]; rfl

/-- An element that emits nothing. -/
theorem Writes.skip {β : Type} {xs : List (Option Raw)} {q : P β} {w : β} (h2 : Writes (cat xs) q w) :
    Writes (cat (cat [] :: xs)) q w := by
  obtain ⟨b, hb, rb⟩ := h2
  exact ⟨b, by rw [cat_cons, cat_nil, hb]; rfl, rb⟩

theorem Writes.last {α : Type} {x : Option Raw} {p : P α} {v : α} (h : Writes x p v) : Writes (cat [x]) p v := by
  rw [cat_single]; exact h

theorem Writes.map {α β : Type} {x : Option Raw} {p : P α} {v : α} (g : α → β) (h : Writes x p v) :
    Writes x (do let a ← p; Pure.pure (g a)) (g v) := by
  have := Writes.cons (xs := []) (g := fun a => Pure.pure (g a)) h (Writes.pure (g v))
  rwa [cat_single] at this

theorem Writes.flat {β : Type} {ys xs : List (Option Raw)} {q : P β} {w : β} (h : Writes (cat (ys ++ xs)) q w) :
    Writes (cat (cat ys :: xs)) q w := by
  obtain ⟨b, hb, rb⟩ := h
  refine ⟨b, ?_, rb⟩
  rw [← hb, cat_append, cat_cons]

theorem reads_f (n v : Nat) (h : v < 2 ^ n) : Reads (P.f n) (toBits n v) v := by
  intro rest
  unfold P.f
  rw [if_neg (by simp), List.take_left' (by simp), List.drop_left' (by simp), num_toBits, Nat.mod_eq_of_lt h]

theorem pushN_eq (v n : Nat) (h : n ≤ 32) : pushN v n = some (raw (toBits n v)) := by
  rw [pushN, pushBitsWithSize, pushLoop_eq 32 _ n h, toBits_congr (b := v)]; · rfl
  exact Nat.mod_mod_of_dvd v (Nat.pow_dvd_pow 2 h)

theorem writes_f (n v : Nat) (h : n ≤ 32) (hv : v < 2 ^ n) : Writes (pushN v n) (P.f n) v :=
  ⟨toBits n v, pushN_eq v n h, reads_f n v hv⟩

theorem P_bind {α β : Type} (p : P α) (g : α → P β) (s : Bits) : (p >>= g) s = (p s).bind fun x => g x.1 x.2 := rfl

theorem P_pure {α : Type} (a : α) (s : Bits) : (pure a : P α) s = some (a, s) := rfl

/-- A field of `n` bits holds a number below `2 ^ n`. -/
theorem f_lt {n v : Nat} {s r : Bits} (h : P.f n s = some (v, r)) : v < 2 ^ n := by
  unfold P.f at h
  split at h
  · cases h
  · simp only [Option.some.injEq, Prod.mk.injEq] at h
    rw [← h.1]
    refine (num_lt _).trans_le (Nat.pow_le_pow_right (by norm_num) ?_)
    simp

theorem reads_flag (b : Bool) : Reads P.flag [b] b := fun _ => rfl

theorem writes_flag (b : Bool) : Writes (pushB b) P.flag b := ⟨[b], rfl, reads_flag b⟩

theorem writes_bit (v : Nat) (h : v < 2) : Writes (pushU v) P.flag (decide (v = 1)) := by
  refine ⟨[decide (v = 1)], ?_, reads_flag _⟩
  have : v = 0 ∨ v = 1 := by omega
  rcases this with rfl | rfl <;> rfl

theorem reads_leb : ∀ (k v n : Nat), 0 < k → k ≤ n → v < 2 ^ (7 * k) → Reads (P.leb128Go n) (lebBits k v) v
  | 0, _, _, h, _, _ => absurd h (by omega)
  | k + 1, v, 0, _, h, _ => absurd h (by omega)
  | 1, v, n + 1, _, _, hv => by
    have h := Reads.bind (g := fun more => do
      let low ← P.f 7
      if more then
        let high ← P.leb128Go n
        pure (low + 128 * high)
      else pure low) (reads_flag false) ((reads_f 7 v (by simpa using hv)).bind (Reads.pure v))
    simpa [lebBits, P.leb128Go] using h
  | k + 2, v, n + 1, _, hk, hv => by
    have ih := reads_leb (k + 1) (v / 128) n (by omega) (by omega) (by
      rw [Nat.div_lt_iff_lt_mul (by omega)]
      calc v < 2 ^ (7 * (k + 2)) := hv
        _ = 2 ^ (7 * (k + 1)) * 128 := by rw [show 7 * (k + 2) = 7 * (k + 1) + 7 by ring, pow_add]; norm_num)
    have hlow : Reads (P.f 7) (toBits 7 v) (v % 128) := by
      have := reads_f 7 (v % 128) (Nat.mod_lt _ (by norm_num))
      rwa [show toBits 7 (v % 128) = toBits 7 v from toBits_congr (by norm_num)] at this
    have h := Reads.bind (g := fun more => do
      let low ← P.f 7
      if more then
        let high ← P.leb128Go n
        pure (low + 128 * high)
      else pure low) (reads_flag true) (hlow.bind (ih.bind (Reads.pure (v % 128 + 128 * (v / 128)))))
    have e : v % 128 + 128 * (v / 128) = v := Nat.mod_add_div v 128
    rw [e] at h
    simpa [lebBits, P.leb128Go] using h

theorem lebBits_fits (v : Nat) (h : v < 2 ^ 56) : lebBytes v ≤ 8 ∧ v < 2 ^ (7 * lebBytes v) :=
  ⟨(lebBytes_le_iff v 8 (by decide)).2 h, (lebBytes_le_iff v (lebBytes v) (lebBytes_pos v)).1 (le_refl _)⟩

theorem encodeLeb128_eq (v : Nat) (h : v < 2 ^ 56) : encodeLeb128 v = some (lebBits (lebBytes v) v) := by
  unfold encodeLeb128
  rw [if_pos (by rw [Nat.shiftLeft_eq, Nat.one_mul]; exact h), lebLoop_eq 10 v (by have := (lebBits_fits v h).1; omega)]

theorem writes_leb (v : Nat) (h : v < 2 ^ 56) : Writes (pushLeb v) P.leb128 v := by
  refine ⟨lebBits (lebBytes v) v, ?_, ?_⟩
  · rw [pushLeb, encodeLeb128_eq v h]; rfl
  · exact reads_leb _ v 8 (lebBytes_pos v) (lebBits_fits v h).1 (lebBits_fits v h).2

theorem reads_zeros (n : Nat) : Reads P.zeros (List.replicate n false ++ [true]) n := by
  intro rest
  induction n with
  | zero => rfl
  | succ n ih =>
    rw [List.replicate_succ, List.cons_append, List.cons_append, P.zeros, ih]; rfl

theorem writes_uvlc (v : Nat) (h : v < 2 ^ 32 - 1) : Writes (pushUvlc v) P.uvlc v := by
  have hl : (v + 1).log2 < 32 := (Nat.log2_lt (by omega)).2 (by omega)
  have h1 := Nat.log2_self_le (n := v + 1) (by omega)
  have h2 := Nat.lt_log2_self (n := v + 1)
  refine ⟨List.replicate (v + 1).log2 false ++ true :: toBits (v + 1).log2 (v + 1), ?_, ?_⟩
  · rw [pushUvlc, encodeUvlc_eq v (by omega)]; rfl
  · have hr : Reads (P.f (v + 1).log2) (toBits (v + 1).log2 (v + 1)) (v + 1 - 2 ^ (v + 1).log2) := by
      have := reads_f (v + 1).log2 (v + 1 - 2 ^ (v + 1).log2) (by rw [pow_succ] at h2; omega)
      rwa [toBits_congr (b := v + 1)] at this
      rw [Nat.mod_eq_sub_mod h1]
    have := Reads.bind (g := fun z => if z ≥ 32 then pure (2 ^ 32 - 1) else do
      let v ← P.f z
      pure (v + 2 ^ z - 1)) (reads_zeros (v + 1).log2) (b := toBits (v + 1).log2 (v + 1)) (w := v) (by
        rw [if_neg (by omega)]
        have := hr.bind (g := fun u => (pure (u + 2 ^ (v + 1).log2 - 1) : P Nat)) (Reads.pure _)
        rw [List.append_nil] at this
        rwa [show v + 1 - 2 ^ (v + 1).log2 + 2 ^ (v + 1).log2 - 1 = v by omega] at this)
    simpa [P.uvlc, List.append_assoc] using this

/-- A loop over a list. -/
theorem writes_many {α : Type} (enc : α → Option Raw) (p : P α) : ∀ (l : List α), (∀ x ∈ l, Writes (enc x) p x) →
    Writes (cat (l.map enc)) (P.many l.length p) l
  | [], _ => Writes.pure []
  | x :: l, h => by
    have ih := writes_many enc p l (fun y hy => h y (by simp [hy]))
    exact Writes.cons (h x (by simp)) (Writes.map (x :: ·) ih)

/-- A loop over a list, each element read through a view. -/
theorem writes_manyMap {α β : Type} (enc : α → Option Raw) (p : P β) (v : α → β) :
    ∀ (l : List α), (∀ x ∈ l, Writes (enc x) p (v x)) → Writes (cat (l.map enc)) (P.many l.length p) (l.map v)
  | [], _ => Writes.pure []
  | x :: l, h => by
    have ih := writes_manyMap enc p v l (fun y hy => h y (by simp [hy]))
    exact Writes.cons (h x (by simp)) (Writes.map (v x :: ·) ih)

theorem writes_opt {α : Type} {x : Option Raw} {p : P α} (o : Option α) (h : ∀ v, o = some v → Writes x p v)
    (h0 : o = none → x = cat []) : Writes x (P.opt o.isSome p) o := by
  cases o with
  | none => rw [h0 rfl]; exact Writes.pure none
  | some v =>
    have := Writes.map some (h v rfl)
    simpa [P.opt] using this

end Av1
