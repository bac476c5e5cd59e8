import Verif.Spec.CommandLine
import Verif.Props.Cli

/-! # C146 — the meaning of every command line -/

namespace Av1.Cli

/-- **C146**, full claim: a command line is accepted exactly when it is a list of settings with usable values, and then means
what the settings say. -/
def C146_full : Prop := ∀ (args : List Str) (cfg : Config),
  readConfig args = .ok cfg ↔ Line false args .standard cfg ∧ cfg.Usable

/-! ## Numbers -/

theorem valD_eq : ∀ (ds : List Nat) (acc : Nat), valD acc ds = acc * 10 ^ ds.length + Nat.ofDigits 10 ds.reverse
  | [], acc => by simp [valD]
  | d :: ds, acc => by
    rw [valD, valD_eq ds, List.reverse_cons, Nat.ofDigits_append, List.length_reverse, List.length_cons, pow_succ]
    simp only [Nat.ofDigits_singleton]
    ring

theorem digit_of (c : Char) (h : '0'.toNat ≤ c.toNat ∧ c.toNat ≤ '9'.toNat) :
    c.toNat - '0'.toNat < 10 ∧ Nat.digitChar (c.toNat - '0'.toNat) = c := by
  have h0 : '0'.toNat = 48 := rfl
  have h9 : '9'.toNat = 57 := rfl
  rw [h0, h9] at h
  rw [h0]
  refine ⟨by omega, ?_⟩
  have hc : c = Char.ofNat c.toNat := (Char.ofNat_toNat c).symm
  generalize c.toNat = n at h hc
  subst hc
  have : n - 48 < 10 := by omega
  obtain ⟨k, hk⟩ : ∃ k, k = n - 48 := ⟨_, rfl⟩
  have hn : n = k + 48 := by omega
  subst hn
  rw [← hk]
  have h10 : k < 10 := by omega
  have key : ∀ k < 10, Nat.digitChar k = Char.ofNat (k + 48) := by decide
  exact key k h10

theorem digits_iff : ∀ (s : Str) (acc v : Nat), acc < 2 ^ 64 → (digits acc s = some v ↔ v < 2 ^ 64 ∧ ∃ ds : List Nat,
    (∀ d ∈ ds, d < 10) ∧ s = ds.map Nat.digitChar ∧ v = valD acc ds)
  | [], acc, v, ha => by
    constructor
    · intro h; cases h; exact ⟨ha, [], by simp, rfl, rfl⟩
    · rintro ⟨-, ds, -, h, rfl⟩
      have : ds = [] := List.map_eq_nil_iff.1 h.symm
      subst this; rfl
  | c :: s, acc, v, ha => by
    rw [digits]
    by_cases hc : '0'.toNat ≤ c.toNat ∧ c.toNat ≤ '9'.toNat
    · rw [if_pos hc]
      obtain ⟨h10, hch⟩ := digit_of c hc
      simp only
      by_cases hv : acc * 10 + (c.toNat - '0'.toNat) < 2 ^ 64
      · rw [if_pos hv, digits_iff s _ v hv]
        constructor
        · rintro ⟨h1, ds, h2, h3, h4⟩
          exact ⟨h1, (c.toNat - '0'.toNat) :: ds, by
            intro d hd
            rcases List.mem_cons.1 hd with rfl | hd
            · exact h10
            · exact h2 d hd, by rw [List.map_cons, hch, h3], h4⟩
        · rintro ⟨h1, ds, h2, h3, h4⟩
          cases ds with
          | nil => simp at h3
          | cons d ds =>
            rw [List.map_cons, List.cons.injEq] at h3
            have hd := digitChar_val d (h2 d (by simp))
            have : c.toNat - '0'.toNat = d := by rw [h3.1]; exact hd.2.2
            rw [this]
            exact ⟨h1, ds, fun x hx => h2 x (by simp [hx]), h3.2, h4⟩
      · rw [if_neg hv]
        simp only [reduceCtorEq, false_iff]
        rintro ⟨h1, ds, h2, h3, h4⟩
        cases ds with
        | nil => simp at h3
        | cons d ds =>
          rw [List.map_cons, List.cons.injEq] at h3
          have hd := digitChar_val d (h2 d (by simp))
          have : c.toNat - '0'.toNat = d := by rw [h3.1]; exact hd.2.2
          rw [this] at hv
          have := valD_ge ds (acc * 10 + d)
          rw [valD] at h4
          omega
    · rw [if_neg hc]
      simp only [reduceCtorEq, false_iff]
      rintro ⟨h1, ds, h2, h3, h4⟩
      cases ds with
      | nil => simp at h3
      | cons d ds =>
        rw [List.map_cons, List.cons.injEq] at h3
        have hd := digitChar_val d (h2 d (by simp))
        exact hc (by rw [h3.1]; exact ⟨hd.1, hd.2.1⟩)

/-- **C146**: an argument is read as a number exactly when it is a decimal numeral of a number below 2^64, and then as that
number; nothing is cut off or wraps around. -/
theorem C146_number (s : Str) (n : Nat) : parseUsize s = some n ↔ Number s n := by
  have plain : ∀ t : Str, (digits 0 t = some n ↔ n < 2 ^ 64 ∧ ∃ ds : List Nat,
      (∀ d ∈ ds, d < 10) ∧ t = ds.map Nat.digitChar ∧ n = Nat.ofDigits 10 ds.reverse) := by
    intro t
    rw [digits_iff t 0 n (by decide)]
    simp only [valD_eq, Nat.zero_mul, Nat.zero_add]
  have noplus : ∀ (t : Str) (ds : List Nat), (∀ d ∈ ds, d < 10) → '+' :: t ≠ ds.map Nat.digitChar := by
    intro t ds h e
    cases ds with
    | nil => simp at e
    | cons d ds =>
      rw [List.map_cons, List.cons.injEq] at e
      exact (digitChar_ne d (h d (by simp))).1 e.1.symm
  unfold Number Numeral parseUsize
  split
  · simp only [reduceCtorEq, false_iff]
    rintro ⟨⟨ds, h1, -, -, h | h⟩, -⟩
    · exact h1 (List.map_eq_nil_iff.1 h.symm)
    · simp at h
  · simp only [reduceCtorEq, false_iff]
    rintro ⟨⟨ds, h1, h2, -, h | h⟩, -⟩
    · exact noplus _ ds h2 h
    · rw [List.cons.injEq] at h
      exact h1 (List.map_eq_nil_iff.1 h.2.symm)
  · rename_i t ht
    rw [plain t]
    constructor
    · rintro ⟨h1, ds, h2, h3, h4⟩
      exact ⟨⟨ds, by rintro rfl; subst h3; exact ht rfl, h2, h4, .inr (by rw [h3])⟩, h1⟩
    · rintro ⟨⟨ds, -, h2, h4, h | h⟩, h1⟩
      · exact absurd h (noplus _ ds h2)
      · rw [List.cons.injEq] at h
        exact ⟨h1, ds, h2, h.2, h4⟩
  · rename_i h0 h00 hp
    rw [plain s]
    constructor
    · rintro ⟨h1, ds, h2, h3, h4⟩
      exact ⟨⟨ds, by rintro rfl; exact h0 h3, h2, h4, .inl h3⟩, h1⟩
    · rintro ⟨⟨ds, -, h2, h4, h | h⟩, h1⟩
      · exact ⟨h1, ds, h2, h, h4⟩
      · exact absurd h (hp _)

theorem numbers_iff (a : Str) : (parseUsize a).isSome ↔ ∃ n, Number a n := by
  rw [Option.isSome_iff_exists]
  simp only [C146_number]

/-- Leading zeros and a plus sign are allowed; 2^64 is not read as 0. -/
example : Number "+0176".toList 176 ∧ parseUsize "18446744073709551616".toList = none :=
  ⟨(C146_number _ _).1 (by decide +kernel), by decide +kernel⟩

/-! ## Lines -/

theorem usable_iff (c : Config) : validate c = true ↔ c.Usable := by
  obtain ⟨i, o, w, h, r, f⟩ := c
  cases i <;> cases o <;> cases f <;> cases w <;> cases h <;> rcases r with _ | ⟨n, d⟩ <;>
    simp [validate, Opt.all, Opt.valid, Config.Usable] <;> omega

theorem Number.no_slash {s : Str} {n : Nat} (h : Number s n) : '/' ∉ s ∧ 'x' ∉ s := by
  rw [← C146_number] at h
  constructor <;> intro hm <;> rcases mem_parseUsize h hm with h | h <;> revert h <;> decide

/-- What `parser` does with an argument, in terms of numerals. -/
theorem parser_ok (o : Opt) (a : Str) (rest r : List Str) (c c' : Config) :
    o.parser (a :: rest) c = .ok (r, c') ↔ match o with
      | .help => False
      | .input => r = rest ∧ c' = { c with input := some a }
      | .output => r = rest ∧ c' = { c with output := some a }
      | .frames => ∃ n, Number a n ∧ r = rest ∧ c' = { c with frames := some n }
      | .size => ∃ p q w h, a = p ++ 'x' :: q ∧ Number p w ∧ Number q h ∧ r = rest ∧
          c' = { c with width := some w, height := some h }
      | .framerate => (∃ n, Number a n ∧ r = rest ∧ c' = { c with framerate := some (n, 1) }) ∨
          ∃ p q n d, a = p ++ '/' :: q ∧ Number p n ∧ Number q d ∧ 0 < d ∧ r = [] ∧
            c' = { c with framerate := some (n / n.gcd d, d / n.gcd d) } := by
  cases o with
  | help => simp [Opt.parser]
  | input => simp [Opt.parser, eq_comm]
  | output => simp [Opt.parser, eq_comm]
  | frames =>
    simp only [Opt.parser, parseTuple1_space, ← C146_number]
    cases parseUsize a <;> simp [eq_comm]
  | size =>
    simp only [Opt.parser]
    constructor
    · intro h
      cases ht : parseTuple2 a 'x' with
      | none => simp [ht] at h
      | some v =>
        obtain ⟨w, hh⟩ := v
        simp only [ht, Res.ok.injEq, Prod.mk.injEq] at h
        obtain ⟨p, q, h1, h2, h3⟩ := (parseTuple2_iff a 'x' (.inl rfl) w hh).1 ht
        exact ⟨p, q, w, hh, h1, (C146_number _ _).1 h2, (C146_number _ _).1 h3, h.1.symm, h.2.symm⟩
    · rintro ⟨p, q, w, hh, h1, h2, h3, rfl, rfl⟩
      rw [(parseTuple2_iff a 'x' (.inl rfl) w hh).2 ⟨p, q, h1, (C146_number _ _).2 h2, (C146_number _ _).2 h3⟩]
  | framerate =>
    simp only [Opt.parser]
    cases hu : parseUsize a with
    | some v =>
      simp only [ratioNew, Nat.one_ne_zero, if_false, Nat.gcd_one_right, Nat.div_one, Res.bind, Res.ok.injEq, Prod.mk.injEq]
      constructor
      · rintro ⟨rfl, rfl⟩
        exact .inl ⟨v, (C146_number _ _).1 hu, rfl, rfl⟩
      · rintro (⟨n, hn, rfl, rfl⟩ | ⟨p, q, n, d, rfl, -⟩)
        · rw [← C146_number, hu] at hn
          cases hn
          exact ⟨rfl, rfl⟩
        · rw [parseUsize_slash] at hu; cases hu
    | none =>
      simp only
      constructor
      · intro h
        cases ht : parseTuple2 a '/' with
        | none => simp [ht] at h
        | some v =>
          obtain ⟨n, d⟩ := v
          obtain ⟨p, q, h1, h2, h3⟩ := (parseTuple2_iff a '/' (.inr rfl) n d).1 ht
          simp only [ht, ratioNew] at h
          by_cases hd : d = 0
          · simp [hd, Res.bind] at h
          · simp only [if_neg hd, Res.bind, Res.ok.injEq, Prod.mk.injEq] at h
            exact .inr ⟨p, q, n, d, h1, (C146_number _ _).1 h2, (C146_number _ _).1 h3, by omega, h.1.symm, h.2.symm⟩
      · rintro (⟨n, hn, -⟩ | ⟨p, q, n, d, h1, h2, h3, hd, rfl, rfl⟩)
        · rw [← C146_number, hu] at hn; cases hn
        · rw [(parseTuple2_iff a '/' (.inr rfl) n d).2 ⟨p, q, h1, (C146_number _ _).2 h2, (C146_number _ _).2 h3⟩]
          simp [ratioNew, Nat.ne_of_gt hd, Res.bind]

theorem parser_nil (o : Opt) (x : List Str × Config) (c : Config) : o.parser [] c ≠ .ok x := by
  cases o <;> simp [Opt.parser]

theorem line_cons {stop : Bool} {o : Opt} {f : Str} (hf : f ∈ o.flags) (args : List Str) (c c' : Config) :
    Line stop (f :: args) c c' ↔ ∃ a rest, args = a :: rest ∧ match o with
      | .help => False
      | .input => Line stop rest { c with input := some a } c'
      | .output => Line stop rest { c with output := some a } c'
      | .frames => ∃ n, Number a n ∧ Line stop rest { c with frames := some n } c'
      | .size => ∃ p q w h, a = p ++ 'x' :: q ∧ Number p w ∧ Number q h ∧
          Line stop rest { c with width := some w, height := some h } c'
      | .framerate => (∃ n, Number a n ∧ Line stop rest { c with framerate := some (n, 1) } c') ∨
          ∃ p q n d, a = p ++ '/' :: q ∧ Number p n ∧ Number q d ∧ 0 < d ∧
            Line stop (if stop then [] else rest) { c with framerate := some (n / n.gcd d, d / n.gcd d) } c' := by
  constructor
  · intro h
    cases h with
    | input h1 h2 => cases flag_opt hf (o' := .input) h1; exact ⟨_, _, rfl, h2⟩
    | output h1 h2 => cases flag_opt hf (o' := .output) h1; exact ⟨_, _, rfl, h2⟩
    | frames h1 h2 h3 => cases flag_opt hf (o' := .frames) h1; exact ⟨_, _, rfl, _, h2, h3⟩
    | size h1 h2 h3 h4 => cases flag_opt hf (o' := .size) h1; exact ⟨_, _, rfl, _, _, _, _, rfl, h2, h3, h4⟩
    | rate h1 h2 h3 => cases flag_opt hf (o' := .framerate) h1; exact ⟨_, _, rfl, .inl ⟨_, h2, h3⟩⟩
    | ratio h1 h2 h3 h4 h5 =>
      cases flag_opt hf (o' := .framerate) h1; exact ⟨_, _, rfl, .inr ⟨_, _, _, _, rfl, h2, h3, h4, h5⟩⟩
  · rintro ⟨a, rest, rfl, h⟩
    cases o with
    | help => exact h.elim
    | input => exact .input hf h
    | output => exact .output hf h
    | frames => obtain ⟨n, h1, h2⟩ := h; exact .frames hf h1 h2
    | size => obtain ⟨p, q, w, hh, rfl, h1, h2, h3⟩ := h; exact .size hf h1 h2 h3
    | framerate =>
      rcases h with ⟨n, h1, h2⟩ | ⟨p, q, n, d, rfl, h1, h2, h3, h4⟩
      · exact .rate hf h1 h2
      · exact .ratio hf h1 h2 h3 h4

theorem line_flag {stop : Bool} {f : Str} {args : List Str} {c c' : Config} (h : Line stop (f :: args) c c') :
    ∃ o : Opt, f ∈ o.flags := by
  cases h with
  | input h1 => exact ⟨.input, h1⟩
  | output h1 => exact ⟨.output, h1⟩
  | frames h1 => exact ⟨.frames, h1⟩
  | size h1 => exact ⟨.size, h1⟩
  | rate h1 => exact ⟨.framerate, h1⟩
  | ratio h1 => exact ⟨.framerate, h1⟩

theorem bind_ok_iff {α β : Type} (r : Res α) (f : α → Res β) (b : β) : r.bind f = .ok b ↔ ∃ a, r = .ok a ∧ f a = .ok b := by
  cases r <;> simp [Res.bind]

theorem parse_ok : ∀ (n : Nat) (args : List Str) (c c' : Config), args.length ≤ n →
    (parseFuel n args c = .ok c' ↔ Line true args c c') := by
  intro n
  induction n with
  | zero =>
    intro args c c' hn
    have : args = [] := List.length_eq_zero_iff.1 (by omega)
    subst this
    constructor
    · intro h; cases h; exact .nil
    · intro h; cases h; rfl
  | succ n ih =>
    intro args c c' hn
    cases args with
    | nil =>
      constructor
      · intro h; cases h; exact .nil
      · intro h; cases h; rfl
    | cons f args =>
      simp only [List.length_cons] at hn
      rw [parseFuel, bind_ok_iff]
      rcases parseOne_cases f args c with ⟨h1, h2⟩ | ⟨o, hf⟩ | ⟨h1, h2, hno⟩
      · rw [h2]
        simp only [reduceCtorEq, false_and, exists_false, false_iff]
        intro h
        obtain ⟨o, ho⟩ := line_flag h
        exact h1 (flag_sliceable ho)
      · rw [parseOne_flag o f hf, line_cons hf]
        cases args with
        | nil => simp [parser_nil]
        | cons a rest =>
          simp only [List.length_cons] at hn
          have go := fun (c : Config) => ih rest c c' (by omega)
          have go0 := fun (c : Config) => ih [] c c' (by simp)
          constructor
          · rintro ⟨⟨r, c1⟩, hp, h⟩
            rw [parser_ok] at hp
            refine ⟨a, rest, rfl, ?_⟩
            cases o with
            | help => exact hp
            | input => obtain ⟨rfl, rfl⟩ := hp; exact (go _).1 h
            | output => obtain ⟨rfl, rfl⟩ := hp; exact (go _).1 h
            | frames => obtain ⟨n, h1, rfl, rfl⟩ := hp; exact ⟨n, h1, (go _).1 h⟩
            | size => obtain ⟨p, q, w, hh, h0, h1, h2, rfl, rfl⟩ := hp; exact ⟨p, q, w, hh, h0, h1, h2, (go _).1 h⟩
            | framerate =>
              rcases hp with ⟨n, h1, rfl, rfl⟩ | ⟨p, q, n, d, h0, h1, h2, h3, rfl, rfl⟩
              · exact .inl ⟨n, h1, (go _).1 h⟩
              · exact .inr ⟨p, q, n, d, h0, h1, h2, h3, (go0 _).1 h⟩
          · rintro ⟨a', rest', he, h⟩
            obtain ⟨rfl, rfl⟩ := List.cons.inj he
            cases o with
            | help => exact h.elim
            | input => exact ⟨_, (parser_ok .input _ _ _ _ _).2 ⟨rfl, rfl⟩, (go _).2 h⟩
            | output => exact ⟨_, (parser_ok .output _ _ _ _ _).2 ⟨rfl, rfl⟩, (go _).2 h⟩
            | frames =>
              obtain ⟨n, h1, h2⟩ := h
              exact ⟨_, (parser_ok .frames _ _ _ _ _).2 ⟨n, h1, rfl, rfl⟩, (go _).2 h2⟩
            | size =>
              obtain ⟨p, q, w, hh, h0, h1, h2, h3⟩ := h
              exact ⟨_, (parser_ok .size _ _ _ _ _).2 ⟨p, q, w, hh, h0, h1, h2, rfl, rfl⟩, (go _).2 h3⟩
            | framerate =>
              rcases h with ⟨n, h1, h2⟩ | ⟨p, q, n, d, h0, h1, h2, h3, h4⟩
              · exact ⟨_, (parser_ok .framerate _ _ _ _ _).2 (.inl ⟨n, h1, rfl, rfl⟩), (go _).2 h2⟩
              · exact ⟨_, (parser_ok .framerate _ _ _ _ _).2 (.inr ⟨p, q, n, d, h0, h1, h2, h3, rfl, rfl⟩), (go0 _).2 h4⟩
      · rw [h2]
        simp only [reduceCtorEq, false_and, exists_false, false_iff]
        intro h
        obtain ⟨o, ho⟩ := line_flag h
        exact hno o ho

/-- **C146**, exactly: the command lines accepted and what they mean.  The only difference to the full claim: a frame rate
of the form N/D ends the command line. -/
theorem C146_exact (args : List Str) (cfg : Config) :
    readConfig args = .ok cfg ↔ Line true args .standard cfg ∧ cfg.Usable := by
  rw [readConfig, initConfig_eq, Res.bind, bind_ok_iff]
  simp only [parse]
  constructor
  · rintro ⟨c, h1, h2⟩
    split at h2
    · rename_i hv
      cases h2
      exact ⟨(parse_ok _ _ _ _ (le_refl _)).1 h1, (usable_iff _).1 hv⟩
    · cases h2
  · rintro ⟨h1, h2⟩
    exact ⟨cfg, (parse_ok _ _ _ _ (le_refl _)).2 h1, by rw [if_pos ((usable_iff _).2 h2)]⟩

theorem RatioLast.tail {f a : Str} {rest : List Str} (h : RatioLast (f :: a :: rest)) : RatioLast rest := by
  intro pre r g b e
  exact h (f :: a :: pre) r g b (by rw [e]; rfl)

theorem line_stop {args : List Str} {c c' : Config} (hr : RatioLast args) : Line true args c c' ↔ Line false args c c' := by
  constructor
  · intro h
    induction h with
    | nil => exact .nil
    | input h1 _ ih => exact .input h1 (ih hr.tail)
    | output h1 _ ih => exact .output h1 (ih hr.tail)
    | frames h1 h2 _ ih => exact .frames h1 h2 (ih hr.tail)
    | size h1 h2 h3 _ ih => exact .size h1 h2 h3 (ih hr.tail)
    | rate h1 h2 _ ih => exact .rate h1 h2 (ih hr.tail)
    | ratio h1 h2 h3 h4 h5 _ =>
      have := hr [] _ _ _ rfl h1 (by simp)
      subst this
      cases h5
      exact .ratio h1 h2 h3 h4 .nil
  · intro h
    induction h with
    | nil => exact .nil
    | input h1 _ ih => exact .input h1 (ih hr.tail)
    | output h1 _ ih => exact .output h1 (ih hr.tail)
    | frames h1 h2 _ ih => exact .frames h1 h2 (ih hr.tail)
    | size h1 h2 h3 _ ih => exact .size h1 h2 h3 (ih hr.tail)
    | rate h1 h2 _ ih => exact .rate h1 h2 (ih hr.tail)
    | ratio h1 h2 h3 h4 h5 _ =>
      have := hr [] _ _ _ rfl h1 (by simp)
      subst this
      cases h5
      exact .ratio h1 h2 h3 h4 .nil

/-- **C146, partial.** Missing: command lines that go on behind a frame rate of the form N/D; for those see `C146_exact`. -/
theorem C146_meaning_partial (args : List Str) (cfg : Config) (hr : RatioLast args) :
    readConfig args = .ok cfg ↔ Line false args .standard cfg ∧ cfg.Usable := by
  rw [C146_exact, line_stop hr]

/-- A line that meets the hypothesis and is accepted. -/
example : RatioLast exArgs ∧ ∃ cfg, readConfig exArgs = .ok cfg ∧ cfg.width = some 176 := by
  refine ⟨?_, _, rfl, rfl⟩
  intro pre rest f a h hf ha
  have : ∀ x ∈ exArgs, '/' ∉ x := by decide
  exact absurd ha (this a (by rw [h]; simp))

/-- The program violates C146: behind `-r 30/1` anything is accepted. -/
theorem C146_negation : ¬ C146_full := by
  intro h
  have h1 : readConfig (exArgs ++ ["-r".toList, "30/1".toList, "nonsense".toList]) =
      .ok ⟨some "stdin".toList, some "stdout".toList, some 176, some 144, some (30, 1), some 4294967295⟩ := by decide +kernel
  obtain ⟨hl, -⟩ := (h _ _).1 h1
  have o1 := (line_cons (o := .input) (by decide) _ _ _).1 hl
  obtain ⟨_, _, e, hl⟩ := o1
  obtain ⟨rfl, rfl⟩ := List.cons.inj e
  obtain ⟨_, _, e, hl⟩ := (line_cons (o := .output) (by decide) _ _ _).1 hl
  obtain ⟨rfl, rfl⟩ := List.cons.inj e
  obtain ⟨_, _, e, _, _, _, _, -, -, -, hl⟩ := (line_cons (o := .size) (by decide) _ _ _).1 hl
  obtain ⟨rfl, rfl⟩ := List.cons.inj e
  obtain ⟨_, _, e, hl⟩ := (line_cons (o := .framerate) (by decide) _ _ _).1 hl
  obtain ⟨rfl, rfl⟩ := List.cons.inj e
  have bad : ∀ c c', ¬ Line false ["nonsense".toList] c c' := fun c c' h => by
    obtain ⟨o, ho⟩ := line_flag h
    revert ho; cases o <;> decide
  rcases hl with ⟨_, -, hl⟩ | ⟨_, _, _, _, -, -, -, -, hl⟩ <;> exact bad _ _ hl

/-! ## Help -/

theorem setting_flag {o : Opt} {f a : Str} (hf : f ∈ o.flags) : Setting f a ↔ match o with
    | .help => False
    | .input => True
    | .output => True
    | .frames => ∃ n, Number a n
    | .framerate => ∃ n, Number a n
    | .size => ∃ p q w h, a = p ++ 'x' :: q ∧ Number p w ∧ Number q h := by
  cases o <;> simp only [Opt.flags, List.mem_cons, List.not_mem_nil, or_false] at hf <;> rcases hf with rfl | rfl <;>
    simp [Setting]

theorem Setting.flag {f a : Str} (h : Setting f a) : ∃ o : Opt, f ∈ o.flags := by
  rcases h with h | ⟨h, -⟩ | ⟨h, -⟩ <;> simp only [List.mem_cons, List.not_mem_nil, or_false] at h
  · rcases h with h | h | h | h <;> subst h
    · exact ⟨.input, by decide⟩
    · exact ⟨.input, by decide⟩
    · exact ⟨.output, by decide⟩
    · exact ⟨.output, by decide⟩
  · rcases h with h | h | h | h <;> subst h
    · exact ⟨.frames, by decide⟩
    · exact ⟨.frames, by decide⟩
    · exact ⟨.framerate, by decide⟩
    · exact ⟨.framerate, by decide⟩
  · rcases h with h | h <;> subst h
    · exact ⟨.size, by decide⟩
    · exact ⟨.size, by decide⟩

theorem help_cons {o : Opt} {f : Str} (hf : f ∈ o.flags) (args : List Str) :
    AsksHelp (f :: args) ↔ o = .help ∨ ∃ a rest, args = a :: rest ∧ Setting f a ∧ AsksHelp rest := by
  constructor
  · intro h
    cases h with
    | here h => exact .inl (flag_opt hf (o' := .help) h)
    | next h1 h2 => exact .inr ⟨_, _, rfl, h1, h2⟩
  · rintro (rfl | ⟨a, rest, rfl, h1, h2⟩)
    · exact .here hf
    · exact .next h1 h2

theorem bind_exit_iff {α β : Type} (r : Res α) (f : α → Res β) : r.bind f = .exit ↔ r = .exit ∨ ∃ a, r = .ok a ∧ f a = .exit := by
  cases r <;> simp [Res.bind]

theorem parser_exit (o : Opt) (args : List Str) (c : Config) : o.parser args c = .exit ↔ o = .help := by
  cases o with
  | help => simp [Opt.parser]
  | framerate =>
    cases args with
    | nil => simp [Opt.parser]
    | cons a rest =>
      simp only [Opt.parser]
      split
      · simp [ratioNew, Res.bind]
      · split
        · simp
        · simp only [ratioNew]; split <;> simp [Res.bind]
  | _ =>
    cases args with
    | nil => simp [Opt.parser]
    | cons a rest => simp only [Opt.parser]; (try split) <;> simp

theorem parse_exit : ∀ (n : Nat) (args : List Str) (c : Config), args.length ≤ n →
    (parseFuel n args c = .exit ↔ AsksHelp args) := by
  intro n
  induction n with
  | zero =>
    intro args c hn
    have : args = [] := List.length_eq_zero_iff.1 (by omega)
    subst this
    simp only [parseFuel, reduceCtorEq, false_iff]
    intro h; cases h
  | succ n ih =>
    intro args c hn
    cases args with
    | nil =>
      simp only [parseFuel, reduceCtorEq, false_iff]
      intro h; cases h
    | cons f args =>
      simp only [List.length_cons] at hn
      rw [parseFuel, bind_exit_iff]
      have no : (∀ o : Opt, f ∉ o.flags) → ¬ AsksHelp (f :: args) := by
        intro hno h
        cases h with
        | here h => exact hno .help h
        | next h => obtain ⟨o, ho⟩ := h.flag; exact hno o ho
      rcases parseOne_cases f args c with ⟨h1, h2⟩ | ⟨o, hf⟩ | ⟨h1, h2, hno⟩
      · rw [h2]
        simp only [reduceCtorEq, false_and, exists_false, or_self, false_iff]
        exact no fun o ho => h1 (flag_sliceable ho)
      · rw [parseOne_flag o f hf, help_cons hf, parser_exit]
        refine or_congr_right ?_
        cases args with
        | nil => simp [parser_nil]
        | cons a rest =>
          simp only [List.length_cons] at hn
          have go := fun (c : Config) => ih rest c (by omega)
          constructor
          · rintro ⟨⟨r, c1⟩, hp, h⟩
            rw [parser_ok] at hp
            refine ⟨a, rest, rfl, ?_⟩
            rw [setting_flag hf]
            cases o with
            | help => exact hp.elim
            | input => obtain ⟨rfl, rfl⟩ := hp; exact ⟨trivial, (go _).1 h⟩
            | output => obtain ⟨rfl, rfl⟩ := hp; exact ⟨trivial, (go _).1 h⟩
            | frames => obtain ⟨n, h1, rfl, rfl⟩ := hp; exact ⟨⟨n, h1⟩, (go _).1 h⟩
            | size => obtain ⟨p, q, w, hh, h0, h1, h2, rfl, rfl⟩ := hp; exact ⟨⟨p, q, w, hh, h0, h1, h2⟩, (go _).1 h⟩
            | framerate =>
              rcases hp with ⟨n, h1, rfl, rfl⟩ | ⟨p, q, n, d, h0, h1, h2, h3, rfl, rfl⟩
              · exact ⟨⟨n, h1⟩, (go _).1 h⟩
              · cases n <;> simp [parseFuel] at h
          · rintro ⟨a', rest', he, hs, h⟩
            obtain ⟨rfl, rfl⟩ := List.cons.inj he
            rw [setting_flag hf] at hs
            cases o with
            | help => exact hs.elim
            | input => exact ⟨_, (parser_ok .input _ _ _ _ _).2 ⟨rfl, rfl⟩, (go _).2 h⟩
            | output => exact ⟨_, (parser_ok .output _ _ _ _ _).2 ⟨rfl, rfl⟩, (go _).2 h⟩
            | frames =>
              obtain ⟨n, h1⟩ := hs
              exact ⟨_, (parser_ok .frames _ _ _ _ _).2 ⟨n, h1, rfl, rfl⟩, (go _).2 h⟩
            | size =>
              obtain ⟨p, q, w, hh, h0, h1, h2⟩ := hs
              exact ⟨_, (parser_ok .size _ _ _ _ _).2 ⟨p, q, w, hh, h0, h1, h2, rfl, rfl⟩, (go _).2 h⟩
            | framerate =>
              obtain ⟨n, h1⟩ := hs
              exact ⟨_, (parser_ok .framerate _ _ _ _ _).2 (.inl ⟨n, h1, rfl, rfl⟩), (go _).2 h⟩
      · rw [h2]
        simp only [reduceCtorEq, false_and, exists_false, or_self, false_iff]
        exact no hno

/-- **C146**: help is given exactly when it is asked for behind settings, whatever follows. -/
theorem C146_help (args : List Str) : readConfig args = .exit ↔ AsksHelp args := by
  rw [readConfig, initConfig_eq, Res.bind, bind_exit_iff]
  simp only [parse]
  rw [parse_exit _ _ _ (le_refl _)]
  refine ⟨fun h => ?_, .inl⟩
  rcases h with h | ⟨c, -, h⟩
  · exact h
  · split at h <;> cases h

/-- Every command line has exactly one of four outcomes, each with its own condition. -/
theorem C146_rejected (args : List Str) : readConfig args = .err ↔
    (∀ cfg, ¬ (Line true args .standard cfg ∧ cfg.Usable)) ∧ ¬ AsksHelp args ∧ ¬ Crash args := by
  rw [← C146_help, ← C26_iff]
  simp only [← C146_exact]
  cases readConfig args <;> simp

example : AsksHelp ["-s".toList, "1x1".toList, "-h".toList, "nonsense".toList] :=
  .next (.inr (.inr ⟨by decide, "1".toList, "1".toList, 1, 1, rfl, (C146_number _ _).1 (by decide +kernel),
    (C146_number _ _).1 (by decide +kernel)⟩)) (.here (by decide))

end Av1.Cli
