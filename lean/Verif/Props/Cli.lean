import Verif.Model.Cli
import Mathlib.Tactic.Linarith

/-! # C24–C26: the command line -/

namespace Av1.Cli

theorem Res.bind_ok {α β : Type} {r : Res α} {f : α → Res β} {b : β} (h : r.bind f = .ok b) :
    ∃ a, r = .ok a ∧ f a = .ok b := by
  cases r <;> simp [Res.bind] at h
  exact ⟨_, rfl, h⟩

/-- **C24**. An accepted command line yields a configuration in which every value `main` unwraps is present and the
size and frame rate are in the documented range. -/
theorem C24_accepted_complete (args : List Str) (cfg : Config) (h : readConfig args = .ok cfg) :
    ∃ i o f w ht n d, cfg.input = some i ∧ cfg.output = some o ∧ cfg.frames = some f ∧ cfg.width = some w ∧
      cfg.height = some ht ∧ cfg.framerate = some (n, d) ∧ 0 < w ∧ w < 8192 ∧ 0 < ht ∧ ht < 8192 ∧ 0 < n ∧ 0 < d := by
  unfold readConfig at h
  obtain ⟨c0, -, h⟩ := Res.bind_ok h
  obtain ⟨c1, -, h⟩ := Res.bind_ok h
  split at h
  · rename_i hv
    simp only [Res.ok.injEq] at h
    subst h
    simp only [validate, Opt.all, List.all_cons, List.all_nil, Opt.valid, Bool.and_true, Bool.and_eq_true,
      Bool.true_and] at hv
    obtain ⟨h1, h2, h3, h4, h5⟩ := hv
    obtain ⟨i, hi⟩ := Option.isSome_iff_exists.1 h1
    obtain ⟨o, ho⟩ := Option.isSome_iff_exists.1 h2
    obtain ⟨f, hf⟩ := Option.isSome_iff_exists.1 h3
    split at h4
    · rename_i w ht hw hh
      split at h5
      · rename_i n d hr
        simp only [decide_eq_true_eq] at h4 h5
        exact ⟨i, o, f, w, ht, n, d, hi, ho, hf, hw, hh, hr, h4.1, h4.2.1, h4.2.2.1, h4.2.2.2, h5.1, h5.2⟩
      · simp at h5
    · simp at h4
  · simp at h

/-- Non-vacuity: a command line that is accepted. -/
def exArgs : List Str := ["-i".toList, "stdin".toList, "--output".toList, "stdout".toList, "-s".toList, "176x144".toList]

example : readConfig exArgs = .ok ⟨some "stdin".toList, some "stdout".toList, some 176, some 144, some (30, 1),
    some 4294967295⟩ := by decide +kernel

/-- The defaults. -/
theorem initConfig_eq : initConfig = .ok { framerate := some (30, 1), frames := some 4294967295 } := by decide +kernel

/-! ## C25 -/

/-- Meaningful settings a user can ask for. -/
inductive Item where
  | input (p : Str)
  | output (p : Str)
  | frames (n : Nat)
  | size (w h : Nat)
  | rate (n : Nat)
  | ratio (n d : Nat)
deriving Repr, DecidableEq

/-- Decimal digits of a number, most significant first. -/
def decDigits : Nat → Nat → List Nat
  | 0, _ => []
  | f + 1, n => if n < 10 then [n] else decDigits f (n / 10) ++ [n % 10]

/-- The decimal numeral of a number. -/
def dec (n : Nat) : Str := (decDigits (n + 1) n).map Nat.digitChar

example : dec 176 = "176".toList := by decide +kernel

/-- The option name of a setting, long or short. -/
def Item.flag (long : Bool) : Item → Str
  | .input _ => if long then "--input".toList else "-i".toList
  | .output _ => if long then "--output".toList else "-o".toList
  | .frames _ => if long then "--frames".toList else "-fr".toList
  | .size _ _ => if long then "--size".toList else "-s".toList
  | .rate _ => if long then "--framerate".toList else "-r".toList
  | .ratio _ _ => if long then "--framerate".toList else "-r".toList

/-- The option argument as the help text describes it. -/
def Item.arg : Item → Str
  | .input p => p
  | .output p => p
  | .frames n => dec n
  | .size w h => dec w ++ 'x' :: dec h
  | .rate n => dec n
  | .ratio n d => dec n ++ '/' :: dec d

/-- What the setting means. -/
def Item.apply (cfg : Config) : Item → Config
  | .input p => { cfg with input := some p }
  | .output p => { cfg with output := some p }
  | .frames n => { cfg with frames := some n }
  | .size w h => { cfg with width := some w, height := some h }
  | .rate n => { cfg with framerate := some (n, 1) }
  | .ratio n d => { cfg with framerate := some (n / Nat.gcd n d, d / Nat.gcd n d) }

def Item.Ok : Item → Prop
  | .input _ => True
  | .output _ => True
  | .frames n => n < 2 ^ 64
  | .size w h => w < 2 ^ 64 ∧ h < 2 ^ 64
  | .rate n => n < 2 ^ 64
  | .ratio n d => n < 2 ^ 64 ∧ d < 2 ^ 64 ∧ 0 < d

def render (l : List (Bool × Item)) : List Str := l.flatMap fun (b, i) => [i.flag b, i.arg]

/-- **C25**, full claim: all settings given on the command line take effect, later ones overriding earlier ones. -/
def C25_full : Prop := ∀ (l : List (Bool × Item)) (cfg : Config), (∀ x ∈ l, x.2.Ok) →
  parse (render l) cfg = .ok (l.foldl (fun c x => x.2.apply c) cfg)

/-- **C25** is false: everything after a frame rate of the form N/D is silently ignored. -/
theorem C25_negation : ¬ C25_full := by
  intro h
  have := h [(false, .ratio 30 1), (false, .size 16 16)] {} (by simp [Item.Ok])
  revert this
  decide +kernel

/-! Decimal numerals -/

theorem digitChar_val (d : Nat) (h : d < 10) : '0'.toNat ≤ (Nat.digitChar d).toNat ∧
    (Nat.digitChar d).toNat ≤ '9'.toNat ∧ (Nat.digitChar d).toNat - '0'.toNat = d := by
  revert d; decide

/-- Value of a digit list. -/
def valD (acc : Nat) : List Nat → Nat
  | [] => acc
  | d :: ds => valD (acc * 10 + d) ds

theorem valD_ge : ∀ (ds : List Nat) (acc : Nat), acc ≤ valD acc ds
  | [], acc => le_refl _
  | d :: ds, acc => le_trans (by omega) (valD_ge ds (acc * 10 + d))

theorem digits_val : ∀ (ds : List Nat) (acc : Nat), (∀ d ∈ ds, d < 10) → valD acc ds < 2 ^ 64 →
    digits acc (ds.map Nat.digitChar) = some (valD acc ds)
  | [], acc, _, _ => rfl
  | d :: ds, acc, hd, hv => by
    have h := digitChar_val d (hd d (by simp))
    have hge := valD_ge ds (acc * 10 + d)
    simp only [valD] at hv
    rw [List.map_cons, digits, if_pos ⟨h.1, h.2.1⟩]
    simp only [h.2.2]
    rw [if_pos (by omega), digits_val ds _ (fun x hx => hd x (by simp [hx])) hv]
    rfl

theorem valD_append : ∀ (a : List Nat) (acc d : Nat), valD acc (a ++ [d]) = valD acc a * 10 + d
  | [], _, _ => rfl
  | x :: a, acc, d => valD_append a (acc * 10 + x) d

theorem decDigits_spec : ∀ (f n : Nat), n < f → decDigits f n ≠ [] ∧ (∀ d ∈ decDigits f n, d < 10) ∧
    valD 0 (decDigits f n) = n
  | 0, _, h => absurd h (by omega)
  | f + 1, n, h => by
    unfold decDigits
    split
    · simp [valD]; omega
    · obtain ⟨h1, h2, h3⟩ := decDigits_spec f (n / 10) (by omega)
      refine ⟨by simp, ?_, ?_⟩
      · intro d hd
        rcases List.mem_append.1 hd with h | h
        · exact h2 d h
        · simp at h; omega
      · rw [valD_append, h3]; omega

theorem digitChar_ne (d : Nat) (h : d < 10) : Nat.digitChar d ≠ '+' ∧ Nat.digitChar d ≠ ' ' ∧
    Nat.digitChar d ≠ 'x' ∧ Nat.digitChar d ≠ '/' := by
  revert d; decide

theorem parseUsize_dec (n : Nat) (h : n < 2 ^ 64) : parseUsize (dec n) = some n := by
  obtain ⟨h1, h2, h3⟩ := decDigits_spec (n + 1) n (by omega)
  have hd := digits_val _ 0 h2 (by rw [h3]; exact h)
  rw [h3] at hd
  unfold dec
  revert hd
  cases hl : decDigits (n + 1) n with
  | nil => exact absurd hl h1
  | cons d ds =>
    have hne := (digitChar_ne d (h2 d (by simp [hl]))).1
    intro hd
    rw [List.map_cons] at hd ⊢
    unfold parseUsize
    split
    · simp_all
    · rename_i heq; simp only [List.cons.injEq] at heq; exact absurd heq.1 hne
    · rename_i heq; simp only [List.cons.injEq] at heq; exact absurd heq.1 hne
    · exact hd

theorem split_single (c : Char) : ∀ (s : Str), c ∉ s → split c s = [s]
  | [], _ => rfl
  | x :: s, h => by
    simp only [List.mem_cons, not_or] at h
    rw [split, if_neg (fun e => h.1 e.symm), split_single c s h.2]

theorem split_pair (c : Char) (t : Str) (ht : c ∉ t) : ∀ (s : Str), c ∉ s → split c (s ++ c :: t) = [s, t]
  | [], _ => by simp [split, split_single c t ht]
  | x :: s, h => by
    simp only [List.mem_cons, not_or] at h
    rw [List.cons_append, split, if_neg (fun e => h.1 e.symm), split_pair c t ht s h.2]

theorem mem_dec {n : Nat} {c : Char} (h : c ∈ dec n) : c ≠ '+' ∧ c ≠ ' ' ∧ c ≠ 'x' ∧ c ≠ '/' := by
  obtain ⟨-, h2, -⟩ := decDigits_spec (n + 1) n (by omega)
  obtain ⟨d, hd, rfl⟩ := List.mem_map.1 h
  exact digitChar_ne d (h2 d hd)

theorem parseTuple1_dec (n : Nat) (h : n < 2 ^ 64) : parseTuple1 (dec n) ' ' = some n := by
  rw [parseTuple1, split_single _ _ (fun hm => (mem_dec hm).2.1 rfl)]
  exact parseUsize_dec n h

theorem parseTuple2_dec (c : Char) (hc : c = 'x' ∨ c = '/') (a b : Nat) (ha : a < 2 ^ 64) (hb : b < 2 ^ 64) :
    parseTuple2 (dec a ++ c :: dec b) c = some (a, b) := by
  have hn : ∀ n, c ∉ dec n := by
    intro n hm
    rcases hc with rfl | rfl
    · exact (mem_dec hm).2.2.1 rfl
    · exact (mem_dec hm).2.2.2 rfl
  rw [parseTuple2, split_pair c _ (hn b) _ (hn a)]
  simp [parseUsize_dec a ha, parseUsize_dec b hb]

/-- A numeral with a `/` is not a plain number. -/
theorem digits_slash : ∀ (s t : Str) (acc : Nat), digits acc (s ++ '/' :: t) = none
  | [], t, acc => by
    rw [List.nil_append, digits, if_neg (by decide)]
  | c :: s, t, acc => by
    rw [List.cons_append, digits]
    split
    · simp only
      split
      · exact digits_slash s t _
      · rfl
    · rfl

theorem parseUsize_slash (s t : Str) : parseUsize (s ++ '/' :: t) = none := by
  cases s with
  | nil =>
    rw [List.nil_append]
    unfold parseUsize
    split
    · rfl
    · rfl
    · rename_i h; simp at h
    · exact digits_slash [] t 0
  | cons c s =>
    rw [List.cons_append]
    unfold parseUsize
    split
    · rfl
    · rfl
    · rename_i cs _ h
      simp only [List.cons.injEq] at h
      rw [← h.2]; exact digits_slash s t 0
    · exact digits_slash (c :: s) t 0

/-- One setting is consumed with its effect. -/
theorem parseOne_item (b : Bool) (i : Item) (rest : List Str) (cfg : Config) (h : i.Ok) :
    parseOne (i.flag b) (i.arg :: rest) cfg =
      .ok (match i with | .ratio _ _ => [] | _ => rest, i.apply cfg) := by
  cases i with
  | input p => cases b <;> rfl
  | output p => cases b <;> rfl
  | frames n =>
    have := parseTuple1_dec n h
    cases b
    · show Opt.parser .frames (dec n :: rest) cfg = _
      simp [Opt.parser, this, Item.apply]
    · show Opt.parser .frames (dec n :: rest) cfg = _
      simp [Opt.parser, this, Item.apply]
  | size w ht =>
    have := parseTuple2_dec 'x' (.inl rfl) w ht h.1 h.2
    cases b
    · show Opt.parser .size ((dec w ++ 'x' :: dec ht) :: rest) cfg = _
      simp [Opt.parser, this, Item.apply]
    · show Opt.parser .size ((dec w ++ 'x' :: dec ht) :: rest) cfg = _
      simp [Opt.parser, this, Item.apply]
  | rate n =>
    have := parseUsize_dec n h
    cases b
    · show Opt.parser .framerate (dec n :: rest) cfg = _
      simp [Opt.parser, this, Item.apply, ratioNew, Res.bind]
    · show Opt.parser .framerate (dec n :: rest) cfg = _
      simp [Opt.parser, this, Item.apply, ratioNew, Res.bind]
  | ratio n d =>
    have := parseTuple2_dec '/' (.inr rfl) n d h.1 h.2.1
    have h0 : d ≠ 0 := Nat.pos_iff_ne_zero.1 h.2.2
    cases b
    · show Opt.parser .framerate ((dec n ++ '/' :: dec d) :: rest) cfg = _
      simp [Opt.parser, this, parseUsize_slash, Item.apply, ratioNew, Res.bind, h0]
    · show Opt.parser .framerate ((dec n ++ '/' :: dec d) :: rest) cfg = _
      simp [Opt.parser, this, parseUsize_slash, Item.apply, ratioNew, Res.bind, h0]

def Item.isRatio : Item → Bool
  | .ratio _ _ => true
  | _ => false

theorem parseFuel_items : ∀ (l : List (Bool × Item)) (fuel : Nat) (cfg : Config), (render l).length ≤ fuel →
    (∀ x ∈ l, x.2.Ok) → (∀ x ∈ l.dropLast, x.2.isRatio = false) →
    parseFuel fuel (render l) cfg = .ok (l.foldl (fun c x => x.2.apply c) cfg)
  | [], fuel, cfg, _, _, _ => by cases fuel <;> rfl
  | (b, i) :: l, fuel, cfg, hf, hok, hr => by
    have e : render ((b, i) :: l) = i.flag b :: i.arg :: render l := rfl
    rw [e] at hf ⊢
    cases fuel with
    | zero => simp at hf
    | succ fuel =>
      simp only [List.length_cons] at hf
      rw [parseFuel, parseOne_item b i _ cfg (hok (b, i) (by simp))]
      simp only [Res.bind, List.foldl_cons]
      cases l with
      | nil => cases i <;> (cases fuel <;> rfl)
      | cons y l =>
        have h1 : i.isRatio = false := hr (b, i) (by simp [List.dropLast])
        have ih := parseFuel_items (y :: l) fuel (i.apply cfg) (by omega)
          (fun x hx => hok x (by simp only [List.mem_cons] at hx ⊢; tauto))
          (fun x hx => hr x (by simp only [List.dropLast, List.mem_cons] at hx ⊢; tauto))
        cases i <;> first | exact ih | simp [Item.isRatio] at h1

/-- **C25**, what holds: on a command line made of well-formed settings (long or short names, any order, any number,
repeated or not) all take effect, provided a frame rate of the form N/D only occurs as the last setting. -/
theorem C25_options_take_effect_partial (l : List (Bool × Item)) (cfg : Config) (hok : ∀ x ∈ l, x.2.Ok)
    (hr : ∀ x ∈ l.dropLast, x.2.isRatio = false) :
    parse (render l) cfg = .ok (l.foldl (fun c x => x.2.apply c) cfg) :=
  parseFuel_items l _ cfg (le_refl _) hok hr

/-- What happens to everything after a frame rate of the form N/D: it is ignored, well-formed or not. -/
theorem C25_ratio_drops_rest (b : Bool) (n d : Nat) (rest : List Str) (cfg : Config) (h : (Item.ratio n d).Ok) :
    parse (Item.flag b (.ratio n d) :: Item.arg (.ratio n d) :: rest) cfg = .ok ((Item.ratio n d).apply cfg) := by
  rw [parse, List.length_cons, parseFuel, parseOne_item b _ rest cfg h]
  simp [Res.bind, parseFuel]

example : (∀ x ∈ [(true, Item.size 176 144), (false, Item.frames 3), (true, Item.ratio 30000 1001)], x.2.Ok) ∧
    (∀ x ∈ [(true, Item.size 176 144), (false, Item.frames 3), (true, Item.ratio 30000 1001)].dropLast,
      x.2.isRatio = false) := by
  simp [Item.Ok, Item.isRatio]

/-! ## C26 -/

/-- **C26**, full claim: no command line makes the option parser panic. -/
def C26_full : Prop := ∀ args : List Str, readConfig args ≠ .panic

/-- **C26** is false: an empty argument, a lone dash, a multi-byte first character or a zero denominator panics. -/
theorem C26_negation : ¬ C26_full := fun h => h [[]] (by decide +kernel)

theorem C26_negation_dash : readConfig ["-".toList] = .panic := by decide +kernel
theorem C26_negation_utf8 : readConfig ["é".toList] = .panic := by decide +kernel
theorem C26_negation_denominator : readConfig ["-r".toList, "1/0".toList] = .panic := by decide +kernel

/-- An argument on which looking at the first one or two bytes is safe. -/
def Sliceable (a : Str) : Prop :=
  ∃ c cs, a = c :: cs ∧ c.utf8Size = 1 ∧ (c = '-' → ∃ d ds, cs = d :: ds ∧ d.utf8Size = 1)

/-- An argument that does not name a fraction with denominator zero. -/
def NoZeroDen (a : Str) : Prop := ∀ s t, a = s ++ '/' :: t → parseUsize t ≠ some 0

theorem split_ne (c : Char) (s : Str) : split c s ≠ [] := by
  cases s with
  | nil => simp [split]
  | cons x s =>
    rw [split]
    split
    · simp
    · split <;> simp

theorem split_two : ∀ (c : Char) (s p q : Str), split c s = [p, q] → s = p ++ c :: q := by
  have one : ∀ (c : Char) (s p : Str), split c s = [p] → s = p := by
    intro c s
    induction s with
    | nil => intro p h; simpa [split] using h
    | cons x s ih =>
      intro p h
      rw [split] at h
      split at h
      · exact absurd (List.cons.inj h).2 (split_ne c s)
      · split at h
        · rename_i h0
          exact absurd h0 (split_ne c s)
        · rename_i p' ps h0
          simp only [List.cons.injEq] at h
          obtain ⟨rfl, rfl⟩ := h
          rw [ih p' h0]
  intro c s
  induction s with
  | nil => intro p q h; simp [split] at h
  | cons x s ih =>
    intro p q h
    rw [split] at h
    split at h
    · rename_i hx
      simp only [List.cons.injEq] at h
      rw [← h.1, hx, List.nil_append, one c s q h.2]
    · split at h
      · simp at h
      · rename_i p' ps h0
        simp only [List.cons.injEq] at h
        obtain ⟨rfl, rfl⟩ := h
        rw [ih p' q h0, List.cons_append]

/-- What a parser may do to the arguments. -/
theorem parser_spec (o : Opt) (args : List Str) (cfg : Config) (hz : ∀ a ∈ args, NoZeroDen a) :
    o.parser args cfg ≠ .panic ∧ ∀ r c, o.parser args cfg = .ok (r, c) → ∀ a ∈ r, a ∈ args := by
  have key : ∀ (a : Str) (l r : List Str), l = r → ∀ b ∈ r, b ∈ a :: l := by
    intro a l r h b hb; subst h; simp [hb]
  cases o with
  | help => simp [Opt.parser]
  | input => cases args <;> simp [Opt.parser]; exact fun b hb => .inr hb
  | output => cases args <;> simp [Opt.parser]; exact fun b hb => .inr hb
  | frames =>
    cases args with
    | nil => simp [Opt.parser]
    | cons a l =>
      cases h : parseTuple1 a ' ' <;> simp [Opt.parser, h]
      exact fun b hb => .inr hb
  | size =>
    cases args with
    | nil => simp [Opt.parser]
    | cons a l =>
      cases h : parseTuple2 a 'x' <;> simp [Opt.parser, h]
      exact fun b hb => .inr hb
  | framerate =>
    cases args with
    | nil => simp [Opt.parser]
    | cons a l =>
      cases h : parseUsize a with
      | some n =>
        simp [Opt.parser, h, ratioNew, Res.bind]
        exact fun b hb => .inr hb
      | none =>
        cases h2 : parseTuple2 a '/' with
        | none => simp [Opt.parser, h, h2]
        | some nd =>
          obtain ⟨n, d⟩ := nd
          have hd : d ≠ 0 := by
            rintro rfl
            unfold parseTuple2 at h2
            split at h2
            · rename_i p q hs
              have ha := split_two '/' a p q hs
              have := hz a (by simp) p q ha
              cases hp : parseUsize p <;> cases hq : parseUsize q <;> simp [hp, hq] at h2
              exact this (by rw [hq, h2.2])
            · simp at h2
          simp [Opt.parser, h, h2, ratioNew, Res.bind, hd]

theorem parseOne_spec (a : Str) (args : List Str) (cfg : Config) (hs : Sliceable a) (hz : ∀ a ∈ args, NoZeroDen a) :
    parseOne a args cfg ≠ .panic ∧ ∀ r c, parseOne a args cfg = .ok (r, c) → ∀ a ∈ r, a ∈ args := by
  obtain ⟨c, cs, rfl, hc, hd⟩ := hs
  unfold parseOne
  simp only [hc, ne_eq, not_true_eq_false, if_false]
  split
  · rename_i hdash
    obtain ⟨d, ds, rfl, hd1⟩ := hd hdash
    simp only [hd1, ne_eq, not_true_eq_false, if_false]
    split
    · unfold setByName
      split
      · exact parser_spec _ args cfg hz
      · simp
    · unfold setByShort
      split
      · exact parser_spec _ args cfg hz
      · simp
  · simp

theorem parseFuel_noPanic : ∀ (fuel : Nat) (args : List Str) (cfg : Config), (∀ a ∈ args, Sliceable a ∧ NoZeroDen a) →
    parseFuel fuel args cfg ≠ .panic
  | fuel, [], cfg, _ => by cases fuel <;> simp [parseFuel]
  | 0, a :: l, cfg, _ => by simp [parseFuel]
  | fuel + 1, a :: l, cfg, h => by
    have hp := parseOne_spec a l cfg (h a (by simp)).1 (fun b hb => (h b (by simp [hb])).2)
    rw [parseFuel]
    cases ho : parseOne a l cfg with
    | ok p =>
      obtain ⟨r, c⟩ := p
      exact parseFuel_noPanic fuel r c (fun b hb => h b (by simp [hp.2 r c ho b hb]))
    | err => simp [Res.bind]
    | panic => exact absurd ho hp.1
    | exit => simp [Res.bind]

/-- **C26**, what holds: without the four kinds of arguments above the option handling never panics; it accepts,
reports an error, or exits after the help text. -/
theorem C26_no_panic_partial (args : List Str) (h : ∀ a ∈ args, Sliceable a ∧ NoZeroDen a) :
    readConfig args ≠ .panic := by
  rw [readConfig, initConfig_eq]
  simp only [Res.bind]
  have := parseFuel_noPanic args.length args { framerate := some (30, 1), frames := some 4294967295 } h
  cases hp : parse args { framerate := some (30, 1), frames := some 4294967295 } with
  | ok c => simp only; split <;> simp
  | err => simp
  | panic => exact absurd hp this
  | exit => simp

/-- The parser consumes arguments, so the recursion of `parse` ends: its fuel never runs out. -/
theorem parser_shorter (o : Opt) (args r : List Str) (cfg c : Config) (h : o.parser args cfg = .ok (r, c)) :
    r.length ≤ args.length := by
  cases o <;> cases args <;> simp [Opt.parser] at h
  · rw [← h.1]; simp
  · rw [← h.1]; simp
  · split at h <;> simp at h
    rw [← h.1]; simp
  · split at h <;> simp at h
    rw [← h.1]; simp
  · split at h
    · simp [ratioNew, Res.bind] at h; rw [← h.1]; simp
    · split at h
      · simp at h
      · obtain ⟨x, -, h⟩ := Res.bind_ok h
        simp only [Res.ok.injEq, Prod.mk.injEq] at h
        rw [← h.1]; simp

theorem parseOne_shorter (a : Str) (args r : List Str) (cfg c : Config) (h : parseOne a args cfg = .ok (r, c)) :
    r.length ≤ args.length := by
  unfold parseOne at h
  split at h
  · simp at h
  · split at h
    · simp at h
    · split at h
      · split at h
        · simp at h
        · split at h
          · simp at h
          · split at h
            · unfold setByName at h
              split at h
              · exact parser_shorter _ _ _ _ _ h
              · simp at h
            · unfold setByShort at h
              split at h
              · exact parser_shorter _ _ _ _ _ h
              · simp at h
      · simp at h

theorem parseFuel_enough : ∀ (f g : Nat) (args : List Str) (cfg : Config), args.length ≤ f → args.length ≤ g →
    parseFuel f args cfg = parseFuel g args cfg
  | f, g, [], cfg, _, _ => by cases f <;> cases g <;> rfl
  | f + 1, g + 1, a :: l, cfg, hf, hg => by
    rw [parseFuel, parseFuel]
    cases ho : parseOne a l cfg with
    | ok p =>
      obtain ⟨r, c⟩ := p
      have := parseOne_shorter a l r cfg c ho
      simp only [List.length_cons] at hf hg
      exact parseFuel_enough f g r c (by omega) (by omega)
    | err => rfl
    | panic => rfl
    | exit => rfl

example : ∀ a ∈ exArgs, Sliceable a := by
  intro a ha
  simp only [exArgs, List.mem_cons, List.not_mem_nil, or_false] at ha
  rcases ha with rfl | rfl | rfl | rfl | rfl | rfl <;>
  exact ⟨_, _, rfl, by decide, by first | (intro h; exact ⟨_, _, rfl, by decide⟩) | (intro h; revert h; decide)⟩

/-- The settings that are heard: up to the first frame rate of the form N/D, and that one. -/
def heard : List (Bool × Item) → List (Bool × Item)
  | [] => []
  | x :: l => if x.2.isRatio then [x] else x :: heard l

/-- **C25**, exactly: of a command line of well-formed settings those up to the first N/D frame rate take effect, and no
other does. -/
theorem C25_exact (l : List (Bool × Item)) (cfg : Config) (hok : ∀ x ∈ l, x.2.Ok) :
    parse (render l) cfg = .ok ((heard l).foldl (fun c x => x.2.apply c) cfg) := by
  have key : ∀ (l : List (Bool × Item)) (fuel : Nat) (cfg : Config), (render l).length ≤ fuel → (∀ x ∈ l, x.2.Ok) →
      parseFuel fuel (render l) cfg = .ok ((heard l).foldl (fun c x => x.2.apply c) cfg) := by
    intro l
    induction l with
    | nil => intro fuel cfg _ _; cases fuel <;> rfl
    | cons x l ih =>
      obtain ⟨b, i⟩ := x
      intro fuel cfg hf hok
      have e : render ((b, i) :: l) = i.flag b :: i.arg :: render l := rfl
      rw [e] at hf ⊢
      cases fuel with
      | zero => simp at hf
      | succ fuel =>
        simp only [List.length_cons] at hf
        rw [parseFuel, parseOne_item b i _ cfg (hok (b, i) (by simp))]
        have ih := ih fuel (i.apply cfg) (by omega) (fun x hx => hok x (by simp [hx]))
        cases i <;> simp only [Res.bind, heard, Item.isRatio, Bool.false_eq_true, if_false, if_true, List.foldl_cons,
          List.foldl_nil] <;> first | exact ih | (cases fuel <;> rfl)
  exact key l _ cfg (le_refl _) hok

/-! Which arguments a parser accepts -/

theorem mem_digits {c : Char} : ∀ (s : Str) (acc v : Nat), digits acc s = some v → c ∈ s → '0'.toNat ≤ c.toNat ∧ c.toNat ≤ '9'.toNat
  | [], _, _, _, h => by simp at h
  | x :: s, acc, v, h, hm => by
    rw [digits] at h
    split at h
    · rename_i hx
      rcases List.mem_cons.1 hm with rfl | hm
      · exact hx
      · simp only at h
        split at h
        · exact mem_digits s _ v h hm
        · simp at h
    · simp at h

theorem mem_parseUsize {s : Str} {v : Nat} (h : parseUsize s = some v) {c : Char} (hc : c ∈ s) :
    c = '+' ∨ ('0'.toNat ≤ c.toNat ∧ c.toNat ≤ '9'.toNat) := by
  unfold parseUsize at h
  split at h
  · simp at h
  · simp at h
  · rcases List.mem_cons.1 hc with rfl | hc
    · exact .inl rfl
    · exact .inr (mem_digits _ _ _ h hc)
  · exact .inr (mem_digits _ _ _ h hc)

theorem parseTuple1_space (a : Str) : parseTuple1 a ' ' = parseUsize a := by
  by_cases hs : ' ' ∈ a
  · have hn : parseUsize a = none := by
      cases h : parseUsize a with
      | none => rfl
      | some v => rcases mem_parseUsize h hs with h | h <;> exact absurd h (by decide)
    rw [hn, parseTuple1]
    split
    · rename_i b hb
      have : a = b := by
        have key : ∀ (s p : Str), split ' ' s = [p] → ' ' ∉ s ∧ s = p := by
          intro s
          induction s with
          | nil => intro p h; simpa [split] using h
          | cons x s ih =>
            intro p h
            rw [split] at h
            split at h
            · exact absurd (List.cons.inj h).2 (split_ne ' ' s)
            · split at h
              · rename_i h0; exact absurd h0 (split_ne ' ' s)
              · rename_i hx _ p' ps h0
                simp only [List.cons.injEq] at h
                obtain ⟨rfl, rfl⟩ := h
                obtain ⟨i1, rfl⟩ := ih p' h0
                exact ⟨by simp only [List.mem_cons, not_or]; exact ⟨fun e => hx e.symm, i1⟩, rfl⟩
        exact (key a b hb).2
      rw [← this]; exact hn
    · rfl
  · rw [parseTuple1, split_single _ _ hs]

theorem parseTuple2_iff (a : Str) (c : Char) (hc : c = 'x' ∨ c = '/') (x y : Nat) :
    parseTuple2 a c = some (x, y) ↔ ∃ p q, a = p ++ c :: q ∧ parseUsize p = some x ∧ parseUsize q = some y := by
  constructor
  · intro h
    unfold parseTuple2 at h
    split at h
    · rename_i p q hs
      cases hp : parseUsize p <;> cases hq : parseUsize q <;> simp [hp, hq] at h
      exact ⟨p, q, split_two c a p q hs, by rw [hp, h.1], by rw [hq, h.2]⟩
    · simp at h
  · rintro ⟨p, q, rfl, hp, hq⟩
    have hn : ∀ s v, parseUsize s = some v → c ∉ s := by
      intro s v h hm
      rcases mem_parseUsize h hm with h | h <;> rcases hc with rfl | rfl <;> revert h <;> decide
    rw [parseTuple2, split_pair c _ (hn q y hq) _ (hn p x hp)]
    simp [hp, hq]

/-- An option and its argument that are accepted, so that the parser goes on behind them. -/
def Accepted (f a : Str) : Prop :=
  f ∈ ["-i".toList, "--input".toList, "-o".toList, "--output".toList] ∨
  f ∈ ["-fr".toList, "--frames".toList, "-r".toList, "--framerate".toList] ∧ (parseUsize a).isSome ∨
  f ∈ ["-s".toList, "--size".toList] ∧
    ∃ p q, a = p ++ 'x' :: q ∧ (parseUsize p).isSome ∧ (parseUsize q).isSome

/-- A fraction whose denominator is zero. -/
def ZeroDen (a : Str) : Prop := ∃ p q, a = p ++ '/' :: q ∧ (parseUsize p).isSome ∧ parseUsize q = some 0

/-- The command lines that crash the program: behind accepted settings comes an argument that cannot be looked at, or a frame
rate with denominator zero. -/
inductive Crash : List Str → Prop
  | cut {a : Str} {rest : List Str} : ¬ Sliceable a → Crash (a :: rest)
  | zero {f a : Str} {rest : List Str} : f ∈ ["-r".toList, "--framerate".toList] → ZeroDen a → Crash (f :: a :: rest)
  | next {f a : Str} {rest : List Str} : Accepted f a → Crash rest → Crash (f :: a :: rest)

/-- The option an argument names. -/
def Opt.flags : Opt → List Str
  | .help => ["-h".toList, "--help".toList]
  | .input => ["-i".toList, "--input".toList]
  | .output => ["-o".toList, "--output".toList]
  | .frames => ["-fr".toList, "--frames".toList]
  | .size => ["-s".toList, "--size".toList]
  | .framerate => ["-r".toList, "--framerate".toList]

theorem find_opt {g : Opt → Str} {n : Str} {o : Opt} (h : Opt.all.find? (fun o => g o == n) = some o) : g o = n := by
  have := List.find?_some h
  simpa using this

theorem parseOne_flag (o : Opt) (f : Str) (hf : f ∈ o.flags) (rest : List Str) (cfg : Config) :
    parseOne f rest cfg = o.parser rest cfg := by
  cases o <;> simp only [Opt.flags, List.mem_cons, List.not_mem_nil, or_false] at hf <;> rcases hf with rfl | rfl <;> rfl

theorem parseOne_cases (a : Str) (rest : List Str) (cfg : Config) :
    (¬ Sliceable a ∧ parseOne a rest cfg = .panic) ∨ (∃ o : Opt, a ∈ o.flags) ∨
      (Sliceable a ∧ parseOne a rest cfg = .err ∧ ∀ o : Opt, a ∉ o.flags) := by
  by_cases hfl : ∃ o : Opt, a ∈ o.flags
  · exact .inr (.inl hfl)
  have hno : ∀ o : Opt, a ∉ o.flags := fun o h => hfl ⟨o, h⟩
  by_cases hs : Sliceable a
  · right
    obtain ⟨c, cs, rfl, hc, hd⟩ := id hs
    by_cases hdash : c = '-'
    · obtain ⟨d, ds, rfl, hd1⟩ := hd hdash
      subst hdash
      by_cases h2 : d = '-'
      · subst h2
        cases hf : Opt.all.find? (fun o => o.name == ds) with
        | none => right; exact ⟨hs, by simp [parseOne, hd1, setByName, hf], hno⟩
        | some o =>
          left; refine ⟨o, ?_⟩
          have := find_opt hf
          subst this
          cases o <;> decide
      · cases hf : Opt.all.find? (fun o => o.short == d :: ds) with
        | none => right; exact ⟨hs, by simp [parseOne, hc, hd1, setByShort, hf, h2], hno⟩
        | some o =>
          left; refine ⟨o, ?_⟩
          have := find_opt hf
          rw [← this]
          cases o <;> decide
    · right; exact ⟨hs, by simp [parseOne, hc, hdash], hno⟩
  · left
    refine ⟨hs, ?_⟩
    cases a with
    | nil => rfl
    | cons c cs =>
      by_cases hc : c.utf8Size = 1
      · by_cases hdash : c = '-'
        · subst hdash
          cases cs with
          | nil => rfl
          | cons d ds =>
            have : d.utf8Size ≠ 1 := fun hd => hs ⟨_, _, rfl, hc, fun _ => ⟨d, ds, rfl, hd⟩⟩
            simp [parseOne, this]
        · exact absurd ⟨c, cs, rfl, hc, fun h => absurd h hdash⟩ hs
      · simp [parseOne, hc]

theorem flag_opt {o o' : Opt} {f : Str} (h : f ∈ o.flags) (h' : f ∈ o'.flags) : o = o' := by
  have : (o.flags.any fun f => o'.flags.contains f) = true := by
    rw [List.any_eq_true]; exact ⟨f, h, by simpa using h'⟩
  revert this; cases o <;> cases o' <;> decide

theorem flag_sliceable {o : Opt} {f : Str} (h : f ∈ o.flags) : Sliceable f := by
  cases o <;> simp only [Opt.flags, List.mem_cons, List.not_mem_nil, or_false] at h <;> rcases h with rfl | rfl <;>
    exact ⟨_, _, rfl, by decide, fun _ => ⟨_, _, rfl, by decide⟩⟩

theorem parse_panic : ∀ (n : Nat) (args : List Str) (cfg : Config), args.length ≤ n →
    (parseFuel n args cfg = .panic ↔ Crash args) := by
  intro n
  induction n using Nat.strong_induction_on with
  | _ n ih =>
  intro args cfg hn
  cases args with
  | nil => cases n <;> simp [parseFuel] <;> intro h <;> cases h
  | cons f args =>
    cases n with
    | zero => simp at hn
    | succ n =>
      simp only [List.length_cons] at hn
      rw [parseFuel]
      have fl : ∀ {o : Opt} {a : Str} {rest : List Str}, f ∈ o.flags → (Crash (f :: a :: rest) ↔
          (o = .framerate ∧ ZeroDen a) ∨ (Accepted f a ∧ Crash rest)) := by
        intro o a rest hf
        constructor
        · rintro (h | h)
          · exact absurd (flag_sliceable hf) h
          · rename_i hz
            exact .inl ⟨flag_opt hf (o' := .framerate) h, hz⟩
          · rename_i h1 h2; exact .inr ⟨h1, h2⟩
        · rintro (⟨rfl, h⟩ | ⟨h1, h2⟩)
          · exact .zero hf h
          · exact .next h1 h2
      have fn : ∀ {o : Opt}, f ∈ o.flags → ¬ Crash [f] := by
        rintro o hf (h | h)
        exact h (flag_sliceable hf)
      rcases parseOne_cases f args cfg with ⟨h1, h2⟩ | ⟨o, hf⟩ | ⟨h1, h2, hf⟩
      · rw [h2]; exact ⟨fun _ => .cut h1, fun _ => rfl⟩
      · rw [parseOne_flag o f hf]
        have acc : ∀ a, Accepted f a ↔ (match o with
            | .help => False
            | .input => True
            | .output => True
            | .frames => (parseUsize a).isSome
            | .framerate => (parseUsize a).isSome
            | .size => ∃ p q, a = p ++ 'x' :: q ∧ (parseUsize p).isSome ∧ (parseUsize q).isSome) := by
          intro a
          cases o <;> simp only [Opt.flags, List.mem_cons, List.not_mem_nil, or_false] at hf <;> rcases hf with rfl | rfl <;>
            simp [Accepted]
        cases args with
        | nil =>
          have := fn hf
          cases o <;> simp [Opt.parser, Res.bind, this]
        | cons a rest =>
          simp only [List.length_cons] at hn
          rw [fl hf, acc a]
          have go := fun cfg' => ih n (by omega) rest cfg' (by omega)
          cases o with
          | help => simp [Opt.parser, Res.bind]
          | input => simpa [Opt.parser, Res.bind] using go _
          | output => simpa [Opt.parser, Res.bind] using go _
          | frames =>
            simp only [Opt.parser, parseTuple1_space]
            cases parseUsize a with
            | none => simp [Res.bind]
            | some v => simpa [Res.bind] using go _
          | size =>
            simp only [Opt.parser]
            cases h : parseTuple2 a 'x' with
            | none =>
              have : ¬ ∃ p q, a = p ++ 'x' :: q ∧ (parseUsize p).isSome ∧ (parseUsize q).isSome := by
                rintro ⟨p, q, h1, h2, h3⟩
                obtain ⟨x, hx⟩ := Option.isSome_iff_exists.1 h2
                obtain ⟨y, hy⟩ := Option.isSome_iff_exists.1 h3
                rw [(parseTuple2_iff a 'x' (.inl rfl) x y).2 ⟨p, q, h1, hx, hy⟩] at h
                simp at h
              simp [Res.bind, this]
            | some v =>
              obtain ⟨p, q, h1, h2, h3⟩ := (parseTuple2_iff a 'x' (.inl rfl) v.1 v.2).1 h
              have : ∃ p q, a = p ++ 'x' :: q ∧ (parseUsize p).isSome ∧ (parseUsize q).isSome :=
                ⟨p, q, h1, by simp [h2], by simp [h3]⟩
              simpa [Res.bind, this] using go _
          | framerate =>
            simp only [Opt.parser]
            cases h : parseUsize a with
            | some v =>
              have : ¬ ZeroDen a := by
                rintro ⟨p, q, rfl, -⟩
                rw [parseUsize_slash] at h; simp at h
              simpa [ratioNew, Res.bind, this] using go _
            | none =>
              cases h2 : parseTuple2 a '/' with
              | none =>
                have : ¬ ZeroDen a := by
                  rintro ⟨p, q, h1, hp, hq⟩
                  obtain ⟨x, hx⟩ := Option.isSome_iff_exists.1 hp
                  rw [(parseTuple2_iff a '/' (.inr rfl) x 0).2 ⟨p, q, h1, hx, hq⟩] at h2
                  simp at h2
                simp [Res.bind, this]
              | some v =>
                obtain ⟨x, y⟩ := v
                have hz : ZeroDen a ↔ y = 0 := by
                  constructor
                  · rintro ⟨p, q, h1, hp, hq⟩
                    obtain ⟨x', hx⟩ := Option.isSome_iff_exists.1 hp
                    rw [(parseTuple2_iff a '/' (.inr rfl) x' 0).2 ⟨p, q, h1, hx, hq⟩] at h2
                    simp only [Option.some.injEq, Prod.mk.injEq] at h2
                    exact h2.2.symm
                  · rintro rfl
                    obtain ⟨p, q, h1, hp, hq⟩ := (parseTuple2_iff a '/' (.inr rfl) x 0).1 h2
                    exact ⟨p, q, h1, by simp [hp], hq⟩
                by_cases hy : y = 0
                · simp [ratioNew, Res.bind, hz, hy]
                · simp only [ratioNew, hy, if_false, Res.bind, hz]
                  cases n <;> simp [parseFuel]
      · rw [h2]
        have hn : ¬ Crash (f :: args) := by
          rintro (h | h | h)
          · exact h h1
          · exact hf .framerate h
          · rename_i a rest hc
            rcases h with h | ⟨h, -⟩ | ⟨h, -⟩ <;> simp only [List.mem_cons, List.not_mem_nil, or_false] at h
            · rcases h with rfl | rfl | rfl | rfl
              · exact hf .input (by decide)
              · exact hf .input (by decide)
              · exact hf .output (by decide)
              · exact hf .output (by decide)
            · rcases h with rfl | rfl | rfl | rfl
              · exact hf .frames (by decide)
              · exact hf .frames (by decide)
              · exact hf .framerate (by decide)
              · exact hf .framerate (by decide)
            · rcases h with rfl | rfl
              · exact hf .size (by decide)
              · exact hf .size (by decide)
        simp [Res.bind, hn]

/-- **C26**, exactly: the option handling panics on the command lines of `Crash` and on no other. -/
theorem C26_iff (args : List Str) : readConfig args = .panic ↔ Crash args := by
  rw [← parse_panic args.length args { framerate := some (30, 1), frames := some 4294967295 } (le_refl _), readConfig,
    initConfig_eq]
  simp only [Res.bind, parse]
  cases parseFuel args.length args { framerate := some (30, 1), frames := some 4294967295 } with
  | ok c => simp only [reduceCtorEq, iff_false]; split <;> simp
  | err => simp
  | panic => simp
  | exit => simp

example : Crash ["-s".toList, "+16x016".toList, "--frames".toList, "3".toList, "-".toList, "-i".toList] := by
  refine .next (.inr (.inr ⟨by decide, "+16".toList, "016".toList, rfl, by decide +kernel, by decide +kernel⟩))
    (.next (.inr (.inl ⟨by decide, by decide +kernel⟩)) (.cut ?_))
  rintro ⟨c, cs, h, -, h2⟩
  obtain ⟨rfl, rfl⟩ := List.cons.inj h
  obtain ⟨d, ds, h3, -⟩ := h2 rfl
  simp at h3

end Av1.Cli
