import Verif.Model.MvStack
import Verif.Props.Geometry
import Verif.Props.Motion
import Mathlib.Data.List.Nodup
import Mathlib.Data.List.Induction

/-!
# C38 — the motion vector candidate list

Specification: the list holds the distinct candidates in the order of their first appearance, at most 8 of them; the weight
of an entry is the sum of the weights with which it was offered.
-/

namespace Av1

/-- Distinct elements in the order of first appearance. -/
def firsts {α} [DecidableEq α] : List α → List α
  | [] => []
  | a :: l => a :: (firsts l).filter (· ≠ a)

/-- Sum of the weights offered for a key. -/
def offeredWeight {α} [DecidableEq α] (evs : List (α × Nat)) (k : α) : Nat :=
  ((evs.filter (·.1 = k)).map Prod.snd).sum

/-- Identities of the live entries. -/
def MvStack.keys (c : Bool) (s : MvStack) : List (Mv × Option Mv) := (s.refs.take s.found).map (mvKey c)

/-- Weights of the live entries. -/
def MvStack.live (s : MvStack) : List Nat := s.weights.take s.found

/-- The list is within its capacity and free of duplicates. -/
structure MvStack.Good (c : Bool) (s : MvStack) : Prop where
  refs : s.refs.length = 8
  weights : s.weights.length = 8
  found : s.found ≤ 8
  nodup : (s.keys c).Nodup

/-- Entries keep their place and their weights do not shrink. -/
structure MvStack.Grows (c : Bool) (s t : MvStack) : Prop where
  keys : s.keys c <+: t.keys c
  weights : ∀ (i w : Nat), s.live[i]? = some w → ∃ w', t.live[i]? = some w' ∧ w ≤ w'

theorem MvStack.Grows.rfl' (c : Bool) (s : MvStack) : s.Grows c s :=
  ⟨List.prefix_refl _, fun _ w h => ⟨w, h, le_refl _⟩⟩

theorem MvStack.Grows.trans {c : Bool} {s t u : MvStack} (h1 : s.Grows c t) (h2 : t.Grows c u) : s.Grows c u :=
  ⟨h1.keys.trans h2.keys, fun i w h => by
    obtain ⟨w1, h3, h4⟩ := h1.weights i w h
    obtain ⟨w2, h5, h6⟩ := h2.weights i w1 h3
    exact ⟨w2, h5, h4.trans h6⟩⟩

/-- What one insertion does, in terms of the live entries. -/
theorem insert_spec (c : Bool) (s : MvStack) (cand : Mv × Mv) (w : Nat) (h : s.Good c) :
    ∃ t, s.insert c cand w = some t ∧ t.Good c ∧ t.newCount = s.newCount ∧ t.foundMatch = s.foundMatch ∧
      ((∃ i x, (s.keys c)[i]? = some (mvKey c cand) ∧ s.live[i]? = some x ∧ t.keys c = s.keys c ∧
          t.live = s.live.set i (x + w)) ∨
       (mvKey c cand ∉ s.keys c ∧ s.found < 8 ∧ t.keys c = s.keys c ++ [mvKey c cand] ∧ t.live = s.live ++ [w]) ∨
       (mvKey c cand ∉ s.keys c ∧ s.found = 8 ∧ t = s)) := by
  have hf : ¬ s.refs.length < s.found := by have := h.refs; have := h.found; omega
  unfold MvStack.insert
  rw [if_neg hf]
  have htl : (s.refs.take s.found).length = s.found := by
    rw [List.length_take, h.refs]; have := h.found; omega
  cases hi : (s.refs.take s.found).findIdx? fun p => decide (mvKey c p = mvKey c cand) with
  | some i =>
    rw [List.findIdx?_eq_some_iff_getElem] at hi
    obtain ⟨hlt, heq, -⟩ := hi
    have hif : i < s.found := by omega
    have hiw : i < s.weights.length := by have := h.weights; have := h.found; omega
    have hk : (s.keys c)[i]? = some (mvKey c cand) := by
      unfold MvStack.keys
      rw [List.getElem?_map, List.getElem?_eq_getElem hlt]
      simpa using heq
    refine ⟨{ s with weights := s.weights.set i (s.weights[i] + w) }, ?_, ⟨h.refs, ?_, h.found, h.nodup⟩, rfl, rfl,
      Or.inl ⟨i, s.weights[i], hk, ?_, rfl, ?_⟩⟩
    · simp only [List.getElem?_eq_getElem hiw]; rfl
    · simpa using h.weights
    · unfold MvStack.live
      rw [List.getElem?_take_of_lt hif, List.getElem?_eq_getElem hiw]
    · unfold MvStack.live
      simp only [List.take_set]
  | none =>
    rw [List.findIdx?_eq_none_iff] at hi
    have hnot : mvKey c cand ∉ s.keys c := by
      intro hm
      unfold MvStack.keys at hm
      rw [List.mem_map] at hm
      obtain ⟨p, hp, he⟩ := hm
      have := hi p hp
      simp [he] at this
    by_cases h8 : s.found < 8
    · have h8' : s.found < K.MAX_REF_MV_STACK_SIZE := h8
      have hr : s.found < s.refs.length := by rw [h.refs]; exact h8
      have hw : s.found < s.weights.length := by rw [h.weights]; exact h8
      have hkeys : ((s.refs.set s.found (cand.1, if c = true then cand.2 else s.refs[s.found].2)).take (s.found + 1)).map (mvKey c) =
          s.keys c ++ [mvKey c cand] := by
        rw [List.take_add_one]
        rw [List.getElem?_set_self hr]
        rw [List.take_set_of_le (Nat.le_refl _)]
        unfold MvStack.keys
        rw [List.map_append]
        congr 1
        cases c <;> rfl
      simp only [if_pos h8', List.getElem?_eq_getElem hr, List.getElem?_eq_getElem hw]
      refine ⟨_, rfl, ⟨?_, ?_, h8, ?_⟩, rfl, rfl, Or.inr (Or.inl ⟨hnot, h8, hkeys, ?_⟩)⟩
      · simpa using h.refs
      · simpa using h.weights
      · show (((s.refs.set s.found (cand.1, if c = true then cand.2 else s.refs[s.found].2)).take (s.found + 1)).map (mvKey c)).Nodup
        rw [hkeys]
        refine List.nodup_append.2 ⟨h.nodup, List.nodup_singleton _, ?_⟩
        intro a ha b hb
        rw [List.mem_singleton] at hb
        subst hb
        exact fun he => hnot (he ▸ ha)
      · unfold MvStack.live
        show (s.weights.set s.found w).take (s.found + 1) = _
        rw [List.take_add_one, List.getElem?_set_self hw, List.take_set_of_le (Nat.le_refl _)]
        rfl
    · have h8' : ¬ s.found < K.MAX_REF_MV_STACK_SIZE := h8
      rw [if_neg h8']
      refine ⟨s, rfl, h, rfl, rfl, Or.inr (Or.inr ⟨hnot, by have := h.found; omega, rfl⟩)⟩

theorem insert_good (c : Bool) (s t : MvStack) (cand : Mv × Mv) (w : Nat) (h : s.Good c) (ht : s.insert c cand w = some t) :
    t.Good c ∧ s.Grows c t := by
  obtain ⟨t', h1, h2, -, -, h3⟩ := insert_spec c s cand w h
  rw [ht] at h1
  cases h1
  refine ⟨h2, ?_⟩
  rcases h3 with ⟨i, x, -, hx, hk, hl⟩ | ⟨-, -, hk, hl⟩ | ⟨-, -, rfl⟩
  · refine ⟨hk ▸ List.prefix_refl _, fun j v hj => ?_⟩
    by_cases hij : i = j
    · subst hij
      rw [hx] at hj
      cases hj
      refine ⟨x + w, ?_, Nat.le_add_right _ _⟩
      rw [hl, List.getElem?_set_self (List.getElem?_eq_some_iff.1 hx).1]
    · exact ⟨v, by rw [hl, List.getElem?_set_ne hij, hj], le_refl _⟩
  · refine ⟨hk ▸ List.prefix_append _ _, fun j v hj => ⟨v, ?_, le_refl _⟩⟩
    rw [hl, List.getElem?_append_left (List.getElem?_eq_some_iff.1 hj).1, hj]
  · exact .rfl' c _

/-! ### The list for a sequence of insertions -/

theorem mem_firsts {α} [DecidableEq α] (a : α) : ∀ l : List α, a ∈ firsts l ↔ a ∈ l
  | [] => by simp [firsts]
  | b :: l => by
    unfold firsts
    rw [List.mem_cons, List.mem_filter, mem_firsts a l, List.mem_cons]
    by_cases h : a = b <;> simp [h]

theorem firsts_snoc {α} [DecidableEq α] (a : α) : ∀ l : List α, firsts (l ++ [a]) = if a ∈ l then firsts l else firsts l ++ [a]
  | [] => by simp [firsts]
  | b :: l => by
    rw [List.cons_append, firsts, firsts_snoc a l]
    by_cases h : a ∈ l
    · simp [h, firsts]
    · by_cases hb : a = b
      · subst hb; simp [h, firsts]
      · simp [h, hb, firsts]

theorem offered_snoc {α} [DecidableEq α] (evs : List (α × Nat)) (a k : α) (w : Nat) :
    offeredWeight (evs ++ [(a, w)]) k = offeredWeight evs k + if a = k then w else 0 := by
  unfold offeredWeight
  rw [List.filter_append, List.map_append, List.sum_append]
  by_cases h : a = k <;> simp [h]

/-- The list holds what was offered: the first eight different keys in order, each with the sum of its weights. -/
structure MvStack.Holds (c : Bool) (s : MvStack) (evs : List ((Mv × Option Mv) × Nat)) : Prop where
  good : s.Good c
  keys : s.keys c = (firsts (evs.map Prod.fst)).take 8
  live : s.live = (s.keys c).map (offeredWeight evs)

theorem MvStack.Holds.insert {c : Bool} {t u : MvStack} {evs : List ((Mv × Option Mv) × Nat)} {cand : Mv × Mv} {w : Nat}
    (h : t.Holds c evs) (hi : t.insert c cand w = some u) :
    u.Holds c (evs ++ [(mvKey c cand, w)]) ∧ u.newCount = t.newCount ∧ u.foundMatch = t.foundMatch := by
  obtain ⟨hg, hk, hl⟩ := h
  obtain ⟨u', h2, hu, hn, hm, h3⟩ := insert_spec c t cand w hg
  rw [hi] at h2
  cases h2
  refine ⟨⟨hu, ?_, ?_⟩, hn, hm⟩
  · rw [List.map_append, List.map_cons, List.map_nil, firsts_snoc]
    have hlen : (t.keys c).length = t.found := by
      unfold MvStack.keys
      rw [List.length_map, List.length_take, hg.refs]; have := hg.found; omega
    rcases h3 with ⟨i, x, hi, -, hku, -⟩ | ⟨hnot, h8, hku, -⟩ | ⟨hnot, h8, rfl⟩
    · have hm : mvKey c cand ∈ t.keys c := List.mem_of_getElem? hi
      rw [hk] at hm
      rw [if_pos ((mem_firsts _ _).1 (List.mem_of_mem_take hm)), hku, hk]
    · have hlt : ((firsts (evs.map Prod.fst)).take 8).length < 8 := by rw [← hk, hlen]; exact h8
      have hall : (firsts (evs.map Prod.fst)).take 8 = firsts (evs.map Prod.fst) := by
        apply List.take_of_length_le
        rw [List.length_take] at hlt
        omega
      rw [hk, hall] at hnot
      rw [if_neg (fun h => hnot ((mem_firsts _ _).2 h)), hku, hk, hall]
      symm
      apply List.take_of_length_le
      rw [hall] at hlt
      rw [List.length_append, List.length_singleton]
      omega
    · rw [hk]
      split
      · rfl
      · rw [List.take_append_of_le_length]
        have : ((firsts (evs.map Prod.fst)).take 8).length = 8 := by rw [← hk, hlen]; exact h8
        rw [List.length_take] at this
        omega
  · have hlen : t.live.length = (t.keys c).length := by rw [hl, List.length_map]
    rcases h3 with ⟨i, x, hi, hx, hku, hlu⟩ | ⟨hnot, h8, hku, hlu⟩ | ⟨hnot, h8, rfl⟩
    · rw [hlu, hku]
      apply List.ext_getElem?
      intro j
      rw [List.getElem?_map]
      by_cases hij : i = j
      · subst hij
        rw [List.getElem?_set_self (List.getElem?_eq_some_iff.1 hx).1, hi, Option.map_some, offered_snoc, if_pos rfl]
        rw [hl, List.getElem?_map, hi] at hx
        simp only [Option.map_some, Option.some.injEq] at hx
        rw [hx]
      · rw [List.getElem?_set_ne hij, hl, List.getElem?_map]
        cases hj : (t.keys c)[j]? with
        | none => rfl
        | some k =>
          rw [Option.map_some, Option.map_some, offered_snoc, if_neg, Nat.add_zero]
          intro he
          have hj1 := (List.getElem?_eq_some_iff.1 hj)
          have hi1 := (List.getElem?_eq_some_iff.1 hi)
          obtain ⟨a1, a2⟩ := hj1
          obtain ⟨b1, b2⟩ := hi1
          exact hij ((List.Nodup.getElem_inj_iff hg.nodup).1 (b2.trans (he.trans a2.symm)))
    · rw [hlu, hku, List.map_append, hl]
      congr 1
      · apply List.map_congr_left
        intro k hkm
        rw [offered_snoc, if_neg (fun h => hnot (by rw [h]; exact hkm)), Nat.add_zero]
      · rw [List.map_singleton, offered_snoc, if_pos rfl]
        congr 1
        have hne : mvKey c cand ∉ evs.map Prod.fst := by
          have hlt : ((firsts (evs.map Prod.fst)).take 8).length < 8 := by
            rw [← hk, ← hlen]
            unfold MvStack.live
            rw [List.length_take]; omega
          have hall : (firsts (evs.map Prod.fst)).take 8 = firsts (evs.map Prod.fst) := by
            apply List.take_of_length_le
            rw [List.length_take] at hlt
            omega
          rw [hk, hall] at hnot
          exact fun h => hnot ((mem_firsts _ _).2 h)
        have : offeredWeight evs (mvKey c cand) = 0 := by
          unfold offeredWeight
          rw [List.filter_eq_nil_iff.2]
          · rfl
          · intro p hp
            simp only [decide_eq_true_eq]
            exact fun h => hne (h ▸ List.mem_map_of_mem (f := Prod.fst) hp)
        omega
    · rw [hl]
      apply List.map_congr_left
      intro k hkm
      rw [offered_snoc, if_neg (fun h => hnot (by rw [h]; exact hkm)), Nat.add_zero]

theorem MvStack.Holds.empty (c : Bool) (s : MvStack) (hr : s.refs.length = 8) (hw : s.weights.length = 8) (h0 : s.found = 0) :
    s.Holds c [] := by
  have hk : s.keys c = [] := by unfold MvStack.keys; rw [h0]; rfl
  have hl : s.live = [] := by unfold MvStack.live; rw [h0]; rfl
  exact ⟨⟨hr, hw, by omega, by rw [hk]; exact List.nodup_nil⟩, by rw [hk]; rfl, by rw [hk, hl]; rfl⟩

theorem C38_candidates (c : Bool) (s : MvStack) (hr : s.refs.length = 8) (hw : s.weights.length = 8) (h0 : s.found = 0)
    (evs : List ((Mv × Mv) × Nat)) :
    ∃ t, evs.foldlM (fun s ev => s.insert c ev.1 ev.2) s = some t ∧ t.Good c ∧
      t.keys c = (firsts (evs.map fun ev => mvKey c ev.1)).take 8 ∧
      t.live = (t.keys c).map (offeredWeight (evs.map fun ev => (mvKey c ev.1, ev.2))) := by
  have key : ∃ t, evs.foldlM (fun s ev => s.insert c ev.1 ev.2) s = some t ∧
      t.Holds c (evs.map fun ev => (mvKey c ev.1, ev.2)) := by
    induction evs using List.reverseRecOn with
    | nil => exact ⟨s, rfl, .empty c s hr hw h0⟩
    | append_singleton evs ev ih =>
      obtain ⟨t, h1, ht⟩ := ih
      obtain ⟨u, h2, -⟩ := insert_spec c t ev.1 ev.2 ht.good
      refine ⟨u, ?_, ?_⟩
      · rw [List.foldlM_append, h1]
        show (some t).bind _ = _
        simp only [Option.bind_some, List.foldlM_cons, List.foldlM_nil, h2]
        rfl
      · rw [List.map_append]
        exact (ht.insert h2).1
  obtain ⟨t, h1, ht⟩ := key
  refine ⟨t, h1, ht.good, ?_, ht.live⟩
  rw [ht.keys, List.map_map]
  rfl

/-! ### The search as a whole -/

/-- The fields other than the list itself do not matter. -/
theorem good_flags {c : Bool} {s : MvStack} (n : Nat) (m : Bool) (h : s.Good c) :
    ({ s with newCount := n, foundMatch := m } : MvStack).Good c ∧ s.Grows c { s with newCount := n, foundMatch := m } :=
  ⟨⟨h.refs, h.weights, h.found, h.nodup⟩, List.prefix_refl _, fun _ w h => ⟨w, h, le_refl _⟩⟩

theorem addSingle_good (e : MvEnv) (mi : StoredMi) (r : Int) (mv : Mv) (w : Nat) (s t : MvStack) (hc : e.compound = false)
    (h : s.Good e.compound) (ht : addSingle e mi r mv w s = some t) : t.Good e.compound ∧ s.Grows e.compound t := by
  unfold addSingle at ht
  split at ht
  · simp only [Option.bind_eq_bind, Option.bind_eq_some_iff] at ht
    obtain ⟨g, -, ht⟩ := ht
    obtain ⟨h1, h2⟩ := good_flags (s.newCount + (hasNewmv mi.yMode).toNat) true h
    rw [hc] at h1 h2 ⊢
    obtain ⟨h3, h4⟩ := insert_good false _ _ _ _ h1 ht
    exact ⟨h3, h2.trans h4⟩
  · cases ht; exact ⟨h, .rfl' _ _⟩

theorem addCandidate_good (e : MvEnv) (mi : StoredMi) (w : Nat) (s t : MvStack)
    (h : s.Good e.compound) (ht : addCandidate e mi w s = some t) : t.Good e.compound ∧ s.Grows e.compound t := by
  unfold addCandidate at ht
  split at ht
  · split at ht
    · rename_i hc
      split at ht
      · simp only [Option.bind_eq_bind, Option.bind_eq_some_iff] at ht
        obtain ⟨c0, -, c1, -, u, hu, ht⟩ := ht
        obtain ⟨h1, h2⟩ := good_flags s.newCount true h
        rw [hc] at h1 h2 ⊢
        obtain ⟨h3, h4⟩ := insert_good true _ _ _ _ h1 hu
        obtain ⟨h5, h6⟩ := good_flags (u.newCount + (hasNewmv mi.yMode).toNat) u.foundMatch h3
        cases ht
        exact ⟨h5, (h2.trans h4).trans h6⟩
      · cases ht; exact ⟨h, .rfl' _ _⟩
    · rename_i hc
      have hc : e.compound = false := by simpa using hc
      simp only [Option.bind_eq_bind, Option.bind_eq_some_iff] at ht
      obtain ⟨u, hu, ht⟩ := ht
      obtain ⟨h1, h2⟩ := addSingle_good e mi _ _ _ _ _ hc h hu
      obtain ⟨h3, h4⟩ := addSingle_good e mi _ _ _ _ _ hc h1 ht
      exact ⟨h3, h2.trans h4⟩
  · cases ht; exact ⟨h, .rfl' _ _⟩

theorem scanLoop_good (e : MvEnv) (row : Bool) (b4 end4 : Nat) : ∀ (fuel i : Nat) (s t : MvStack), s.Good e.compound →
    scanLoop e row b4 end4 fuel i s = some t → t.Good e.compound ∧ s.Grows e.compound t
  | 0, i, s, t, h, ht => by
    unfold scanLoop at ht
    split at ht
    · cases ht
    · cases ht; exact ⟨h, .rfl' _ _⟩
  | fuel + 1, i, s, t, h, ht => by
    rw [scanLoop] at ht
    split at ht
    · split at ht
      · simp only [Option.bind_eq_bind, Option.bind_eq_some_iff] at ht
        obtain ⟨mi, -, n, -, u, hu, ht⟩ := ht
        obtain ⟨h1, h2⟩ := addCandidate_good e mi _ _ _ h hu
        obtain ⟨h3, h4⟩ := scanLoop_good e row b4 end4 fuel _ _ _ h1 ht
        exact ⟨h3, h2.trans h4⟩
      · cases ht; exact ⟨h, .rfl' _ _⟩
    · cases ht; exact ⟨h, .rfl' _ _⟩

theorem scan_good (e : MvEnv) (row : Bool) (s t : MvStack) (h : s.Good e.compound) (ht : scan e row s = some t) :
    t.Good e.compound ∧ s.Grows e.compound t := by
  unfold scan at ht
  simp only [Option.bind_eq_bind, Option.bind_eq_some_iff] at ht
  obtain ⟨b4, -, rest, -, ht⟩ := ht
  exact scanLoop_good e row _ _ _ _ _ _ h ht

theorem scanPoint_good (e : MvEnv) (s t : MvStack) (h : s.Good e.compound) (ht : scanPoint e s = some t) :
    t.Good e.compound ∧ s.Grows e.compound t := by
  unfold scanPoint at ht
  simp only [Option.bind_eq_bind, Option.bind_eq_some_iff] at ht
  obtain ⟨bw4, -, bh4, -, ht⟩ := ht
  split at ht
  · simp only [Option.bind_eq_some_iff] at ht
    obtain ⟨r, -, mi, -, ht⟩ := ht
    split at ht
    · exact addCandidate_good e mi _ _ _ h ht
    · cases ht; exact ⟨h, .rfl' _ _⟩
  · cases ht; exact ⟨h, .rfl' _ _⟩

theorem bump_live (s t : MvStack) (ht : bumpWeights s = some t) :
    t.live = s.live.map (· + 640) ∧ t.found = s.found ∧ t.refs = s.refs ∧ t.weights.length = s.weights.length := by
  unfold bumpWeights at ht
  split at ht
  · cases ht
  · rename_i hl
    cases ht
    have hlen : ((s.weights.take s.found).map (· + K.REF_CAT_LEVEL)).length = s.found := by
      rw [List.length_map, List.length_take]; omega
    refine ⟨?_, rfl, rfl, ?_⟩
    · unfold MvStack.live
      show List.take s.found _ = _
      rw [List.take_append_of_le_length (by omega), List.take_of_length_le (by omega)]
      rfl
    · show List.length (_ ++ _) = _
      rw [List.length_append, hlen, List.length_drop]; omega

theorem bump_good (c : Bool) (s t : MvStack) (h : s.Good c) (ht : bumpWeights s = some t) : t.Good c ∧ s.Grows c t := by
  obtain ⟨h1, h2, h3, h4⟩ := bump_live s t ht
  have hk : t.keys c = s.keys c := by unfold MvStack.keys; rw [h2, h3]
  refine ⟨⟨h3 ▸ h.refs, h4.trans h.weights, h2 ▸ h.found, hk ▸ h.nodup⟩, hk ▸ List.prefix_refl _, fun i w hi => ⟨w + 640, ?_, ?_⟩⟩
  · rw [h1, List.getElem?_map, hi]; rfl
  · omega

theorem temporalSample_good (e : MvEnv) (dr dc : Nat) (s t : MvStack) (z z' : Nat) (h : s.Good e.compound)
    (ht : temporalSample e dr dc (s, z) = some (t, z')) : t.Good e.compound ∧ s.Grows e.compound t := by
  unfold temporalSample at ht
  dsimp only at ht
  split at ht
  · simp only [Option.bind_eq_bind, Option.bind_eq_some_iff] at ht
    obtain ⟨i0, -, m0, -, ht⟩ := ht
    split at ht
    · rename_i hc
      simp only [Option.bind_eq_some_iff] at ht
      obtain ⟨i1, -, m1, -, ht⟩ := ht
      split at ht
      · simp only [Option.bind_eq_some_iff] at ht
        obtain ⟨zz, -, u, hu, ht⟩ := ht
        cases ht
        rw [hc] at h ⊢
        exact insert_good true _ _ _ _ h hu
      · cases ht; exact ⟨h, .rfl' _ _⟩
    · rename_i hc
      have hc : e.compound = false := by simpa using hc
      split at ht
      · simp only [Option.bind_eq_some_iff] at ht
        obtain ⟨zz, -, u, hu, ht⟩ := ht
        cases ht
        rw [hc] at h ⊢
        exact insert_good false _ _ _ _ h hu
      · cases ht; exact ⟨h, .rfl' _ _⟩
  · cases ht; exact ⟨h, .rfl' _ _⟩

theorem temporalScan_good (e : MvEnv) (s t : MvStack) (z z' : Nat) (h : s.Good e.compound)
    (ht : temporalScan e (s, z) = some (t, z')) : t.Good e.compound ∧ s.Grows e.compound t := by
  unfold temporalScan at ht
  simp only [Option.bind_eq_bind, Option.bind_eq_some_iff] at ht
  obtain ⟨bw4, -, bh4, -, ht⟩ := ht
  revert ht
  generalize (steps (min bh4 16) (if bh4 ≥ 16 then 4 else 2)).flatMap _ = grid
  induction grid generalizing s z with
  | nil => intro ht; cases ht; exact ⟨h, .rfl' _ _⟩
  | cons d grid ih =>
    intro ht
    rw [List.foldlM_cons] at ht
    simp only [Option.bind_eq_bind, Option.bind_eq_some_iff] at ht
    obtain ⟨⟨u, zu⟩, hu, ht⟩ := ht
    obtain ⟨h1, h2⟩ := temporalSample_good e _ _ _ _ _ _ h hu
    obtain ⟨h3, h4⟩ := ih _ _ h1 ht
    exact ⟨h3, h2.trans h4⟩

/-- Whatever the neighbours and the motion field are, a search that ends has collected at most 8 different candidates. -/
theorem C38_search (e : MvEnv) (s t : MvStack) (zero close : Nat) (hr : s.refs.length = 8) (hw : s.weights.length = 8)
    (ht : findMvStack e s = some (t, zero, close)) : t.Good e.compound := by
  unfold findMvStack at ht
  simp only [Option.bind_eq_bind, Option.bind_eq_some_iff] at ht
  obtain ⟨s1, h1, s2, h2, s3, h3, s4, h4, ⟨s5, z⟩, h5, ht⟩ := ht
  cases ht
  have g0 : ({ s with found := 0, newCount := 0, foundMatch := false } : MvStack).Good e.compound :=
    ⟨hr, hw, Nat.zero_le _, List.nodup_nil⟩
  obtain ⟨g1, -⟩ := scan_good e true _ _ g0 h1
  obtain ⟨g2, -⟩ := scan_good e false _ _ (good_flags s1.newCount false g1).1 h2
  obtain ⟨g3, -⟩ := scanPoint_good e _ _ (good_flags s2.newCount false g2).1 h3
  obtain ⟨g4, -⟩ := bump_good _ _ _ g3 h4
  exact (temporalScan_good e _ _ _ _ g4 h5).1

/-- At every stage of the search the entries stay where they are and their weights do not shrink. -/
theorem C38_weights_grow (e : MvEnv) (s t : MvStack) (h : s.Good e.compound) :
    (∀ row, scan e row s = some t → s.Grows e.compound t) ∧
    (scanPoint e s = some t → s.Grows e.compound t) ∧
    (bumpWeights s = some t → s.Grows e.compound t) ∧
    (∀ z z', temporalScan e (s, z) = some (t, z') → s.Grows e.compound t) :=
  ⟨fun row ht => (scan_good e row s t h ht).2, fun ht => (scanPoint_good e s t h ht).2, fun ht => (bump_good _ s t h ht).2,
    fun z z' ht => (temporalScan_good e s t z z' h ht).2⟩

/-- Three candidates, two of them equal. -/
example : (([((⟨8, 2⟩, ⟨0, 0⟩), 4), ((⟨6, 2⟩, ⟨0, 0⟩), 2), ((⟨8, 2⟩, ⟨1, 1⟩), 8)] : List ((Mv × Mv) × Nat)).foldlM
    (fun (s : MvStack) ev => s.insert false ev.1 ev.2)
    (⟨0, 0, false, List.replicate 8 (⟨0, 0⟩, ⟨0, 0⟩), List.replicate 8 0⟩ : MvStack)).map (fun s => (s.keys false, s.live)) =
    some ([(⟨8, 2⟩, none), (⟨6, 2⟩, none)], [12, 2]) := by decide

/-! ## C65 — close candidates outrank temporal ones

AV1 tells candidates next to the block from temporal ones by comparing the weight with 640. -/

theorem insert_low (c : Bool) (s t : MvStack) (cand : Mv × Mv) (n k : Nat) (h : s.Good c) (ht : s.insert c cand 2 = some t)
    (hs : ∀ i w, n ≤ i → s.live[i]? = some w → w ≤ 2 * k) : ∀ i w, n ≤ i → t.live[i]? = some w → w ≤ 2 * (k + 1) := by
  obtain ⟨t', h1, -, -, -, h3⟩ := insert_spec c s cand 2 h
  rw [ht] at h1
  cases h1
  intro i w hi hw
  rcases h3 with ⟨j, x, -, hx, -, hl⟩ | ⟨-, -, -, hl⟩ | ⟨-, -, rfl⟩
  · rw [hl] at hw
    by_cases hij : j = i
    · subst hij
      rw [List.getElem?_set_self (List.getElem?_eq_some_iff.1 hx).1] at hw
      have := hs j x hi hx
      cases hw; omega
    · rw [List.getElem?_set_ne hij] at hw
      have := hs i w hi hw; omega
  · rw [hl] at hw
    by_cases hlt : i < s.live.length
    · rw [List.getElem?_append_left hlt] at hw
      have := hs i w hi hw; omega
    · rw [List.getElem?_append_right (by omega)] at hw
      rcases hd : i - s.live.length with _ | d
      · rw [hd] at hw; cases hw; omega
      · rw [hd] at hw; cases hw
  · have := hs i w hi hw; omega

theorem temporalSample_low (e : MvEnv) (dr dc : Nat) (s t : MvStack) (z z' n k : Nat) (h : s.Good e.compound)
    (ht : temporalSample e dr dc (s, z) = some (t, z')) (hs : ∀ i w, n ≤ i → s.live[i]? = some w → w ≤ 2 * k) :
    ∀ i w, n ≤ i → t.live[i]? = some w → w ≤ 2 * (k + 1) := by
  have triv : ∀ i w, n ≤ i → s.live[i]? = some w → w ≤ 2 * (k + 1) := fun i w a b => by have := hs i w a b; omega
  unfold temporalSample at ht
  dsimp only at ht
  split at ht
  · simp only [Option.bind_eq_bind, Option.bind_eq_some_iff] at ht
    obtain ⟨i0, -, m0, -, ht⟩ := ht
    split at ht
    · rename_i hc
      simp only [Option.bind_eq_some_iff] at ht
      obtain ⟨i1, -, m1, -, ht⟩ := ht
      split at ht
      · simp only [Option.bind_eq_some_iff] at ht
        obtain ⟨zz, -, u, hu, ht⟩ := ht
        cases ht
        rw [hc] at h
        exact insert_low true _ _ _ n k h hu hs
      · cases ht; exact triv
    · rename_i hc
      have hc : e.compound = false := by simpa using hc
      split at ht
      · simp only [Option.bind_eq_some_iff] at ht
        obtain ⟨zz, -, u, hu, ht⟩ := ht
        cases ht
        rw [hc] at h
        exact insert_low false _ _ _ n k h hu hs
      · cases ht; exact triv
  · cases ht; exact triv

theorem temporalScan_low (e : MvEnv) (s t : MvStack) (z z' n : Nat) (h : s.Good e.compound)
    (ht : temporalScan e (s, z) = some (t, z')) (hn : s.live.length ≤ n) :
    ∀ i w, n ≤ i → t.live[i]? = some w → w ≤ 128 := by
  unfold temporalScan at ht
  simp only [Option.bind_eq_bind, Option.bind_eq_some_iff] at ht
  obtain ⟨bw4, -, bh4, -, ht⟩ := ht
  have hsz : ∀ b : Nat, (steps (min b 16) (if b ≥ 16 then 4 else 2)).length ≤ 8 := by
    intro b
    by_cases hb : b ≥ 16
    · rw [if_pos hb, Nat.min_eq_right hb]; decide
    · rw [if_neg hb]
      have : ∀ c < 16, (steps (min c 16) 2).length ≤ 8 := by decide
      exact this b (by omega)
  have hgrid : ((steps (min bh4 16) (if bh4 ≥ 16 then 4 else 2)).flatMap fun dr =>
      (steps (min bw4 16) (if bw4 ≥ 16 then 4 else 2)).map fun dc => (dr, dc)).length ≤ 64 := by
    have hl : ∀ (a b : List Nat), (a.flatMap fun x => b.map fun y => (x, y)).length = a.length * b.length := by
      intro a b
      induction a with
      | nil => simp
      | cons x a ih => rw [List.flatMap_cons, List.length_append, List.length_map, ih, List.length_cons, Nat.succ_mul, Nat.add_comm]
    rw [hl]
    exact Nat.mul_le_mul (hsz bh4) (hsz bw4)
  revert ht hgrid
  generalize (steps (min bh4 16) (if bh4 ≥ 16 then 4 else 2)).flatMap _ = grid
  intro ht hgrid
  have key : ∀ (grid : List (Nat × Nat)) (s : MvStack) (z k : Nat), s.Good e.compound →
      (∀ i w, n ≤ i → s.live[i]? = some w → w ≤ 2 * k) →
      grid.foldlM (fun st d => temporalSample e d.1 d.2 st) (s, z) = some (t, z') →
      ∀ i w, n ≤ i → t.live[i]? = some w → w ≤ 2 * (k + grid.length) := by
    intro grid
    induction grid with
    | nil => intro s z k _ hs ht; cases ht; exact hs
    | cons d grid ih =>
      intro s z k h hs ht
      rw [List.foldlM_cons] at ht
      simp only [Option.bind_eq_bind, Option.bind_eq_some_iff] at ht
      obtain ⟨⟨u, zu⟩, hu, ht⟩ := ht
      have := ih u zu (k + 1) (temporalSample_good e _ _ _ _ _ _ h hu).1 (temporalSample_low e _ _ _ _ _ _ n k h hu hs) ht
      intro i w a b
      have := this i w a b
      rw [List.length_cons]; omega
  intro i w a b
  have := key grid s z 0 h (fun j x hj hx => by
    have := (List.getElem?_eq_some_iff.1 hx).1; omega) ht i w a b
  omega

theorem C65_weights (e : MvEnv) (s t : MvStack) (zero close : Nat) (hr : s.refs.length = 8) (hw : s.weights.length = 8)
    (ht : findMvStack e s = some (t, zero, close)) :
    ∃ n ≤ t.found, (∀ i w, i < n → t.live[i]? = some w → 640 ≤ w) ∧ (∀ i w, n ≤ i → t.live[i]? = some w → w ≤ 128) := by
  unfold findMvStack at ht
  simp only [Option.bind_eq_bind, Option.bind_eq_some_iff] at ht
  obtain ⟨s1, h1, s2, h2, s3, h3, s4, h4, ⟨s5, z⟩, h5, ht⟩ := ht
  simp only [Option.some.injEq, Prod.mk.injEq] at ht
  obtain ⟨rfl, -, -⟩ := ht
  have g0 : ({ s with found := 0, newCount := 0, foundMatch := false } : MvStack).Good e.compound :=
    ⟨hr, hw, Nat.zero_le _, List.nodup_nil⟩
  obtain ⟨g1, -⟩ := scan_good e true _ _ g0 h1
  obtain ⟨g2, -⟩ := scan_good e false _ _ (good_flags s1.newCount false g1).1 h2
  obtain ⟨g3, -⟩ := scanPoint_good e _ _ (good_flags s2.newCount false g2).1 h3
  obtain ⟨g4, -⟩ := bump_good _ _ _ g3 h4
  obtain ⟨g5, gr⟩ := temporalScan_good e _ _ _ _ g4 h5
  obtain ⟨hl, hf, -, -⟩ := bump_live _ _ h4
  have len4 : s4.live.length = s4.found := by
    unfold MvStack.live; rw [List.length_take, g4.weights]; have := g4.found; omega
  refine ⟨s4.found, ?_, ?_, ?_⟩
  · have := gr.keys.length_le
    unfold MvStack.keys at this
    rw [List.length_map, List.length_map, List.length_take, List.length_take, g4.refs, g5.refs] at this
    have := g4.found; have := g5.found; omega
  · intro i w hi hiw
    have hlt : i < s4.live.length := by omega
    obtain ⟨w', h6, h7⟩ := gr.weights i _ (List.getElem?_eq_getElem hlt)
    rw [hiw] at h6
    cases h6
    have h8 : ∀ x ∈ s4.live, 640 ≤ x := by
      rw [hl]
      intro x hx
      rw [List.mem_map] at hx
      obtain ⟨y, -, rfl⟩ := hx
      omega
    have := h8 _ (List.getElem_mem hlt)
    omega
  · exact temporalScan_low e _ _ _ _ _ g4 h5 (by omega)

/-! ## C66 — the search works for every block of the frame -/

/-- A tile that covers the frame, a block inside it, all blocks before it stored, a complete motion field. -/
structure MvEnv.Ready (e : MvEnv) : Prop where
  block : e.bsize < 22
  inRow : e.rowStart ≤ e.miRow ∧ e.miRow < e.rowEnd ∧ e.rowEnd ≤ e.miRows
  inCol : e.colStart ≤ e.miCol ∧ e.miCol < e.colEnd ∧ e.colEnd ≤ e.miCols
  /-- The current frame (intra block copy) or a reference frame. -/
  refs : 0 ≤ e.ref0 ∧ e.ref0 ≤ 7 ∧ e.ref1 ≤ 7 ∧ (e.compound = true → 0 ≤ e.ref1)
  gm : e.gmType.length = 8
  stored : ∀ r c, r < e.miRows → c < e.miCols → ∃ mi, e.at_ r c = some mi ∧ mi.miSize < 22
  field : ∀ i r c, i < 8 → r < e.miRows → c < e.miCols → ∃ m, e.field i (r / 2) (c / 2) = some m

def C66_full : Prop := ∀ (e : MvEnv) (s : MvStack), e.Ready → s.refs.length = 8 → s.weights.length = 8 →
  ∃ r, findMvStack e s = some r

/-- In the first row the search reads row `-1` before it checks that the position exists. -/
theorem C66_first_row (e : MvEnv) (s : MvStack) (h0 : e.miRow = 0)
    (hb : ∀ w h, blockDims[e.bsize]? = some (w, h) → max w h ≤ 64) (hs : e.bsize < 22) : findMvStack e s = none := by
  have hp : ∀ s, scanPoint e s = none := by
    intro s
    have h16 : ∀ b < 22, ∃ w h, blockDims[b]? = some (w, h) ∧ ∃ w4 h4, K.num_4x4_blocks_wide[b]? = some w4 ∧
        K.num_4x4_blocks_high[b]? = some h4 ∧ (max w h ≤ 64 → max w4 h4 ≤ 16) := by
      have : ∀ b < 22, ((blockDims[b]?).isSome && (K.num_4x4_blocks_wide[b]?).isSome && (K.num_4x4_blocks_high[b]?).isSome &&
          (decide (¬ max (blockDims[b]?.getD (0, 0)).1 (blockDims[b]?.getD (0, 0)).2 ≤ 64) ||
            decide (max (K.num_4x4_blocks_wide[b]?.getD 0) (K.num_4x4_blocks_high[b]?.getD 0) ≤ 16))) = true := by decide
      intro b hb
      have h := this b hb
      simp only [Bool.and_eq_true, Bool.or_eq_true, decide_eq_true_eq, Option.isSome_iff_exists] at h
      obtain ⟨⟨⟨⟨⟨w, hh⟩, h1⟩, ⟨w4, h2⟩⟩, ⟨h4, h3⟩⟩, h5⟩ := h
      refine ⟨w, hh, h1, w4, h4, h2, h3, fun h6 => ?_⟩
      rw [h1, h2, h3] at h5
      simp only [Option.getD_some] at h5
      rcases h5 with h5 | h5
      · exact absurd h6 h5
      · exact h5
    obtain ⟨w, h, h1, w4, h4, h2, h3, h5⟩ := h16 e.bsize hs
    unfold scanPoint
    rw [h2, h3]
    simp only [Option.bind_eq_bind, Option.bind_some]
    rw [if_pos (h5 (hb w h h1)), h0]
    rfl
  unfold findMvStack
  simp only [hp, Option.bind_eq_bind, Option.bind_none, Option.bind_fun_none]

/-- The motion field that `EncoderContext::new` allocates (encoder.rs 181) has one empty row of one list, and nothing ever
fills it: with it no search for an inter block ends. -/
theorem C66_never_fresh (e : MvEnv) (s : MvStack) (hb : e.bsize < 22) (h1 : 1 ≤ e.ref0)
    (hf : e.field = fun i y x => ((([[[]]] : List (List (List Mv)))[i]?.bind (·[y]?)).bind (·[x]?)))
    (hi : e.inside ((e.miRow ||| 1 : Nat) : Int) ((e.miCol ||| 1 : Nat) : Int) = true) : findMvStack e s = none := by
  have hs : ∀ st, temporalSample e 0 0 st = none := by
    intro st
    unfold temporalSample
    simp only [Nat.add_zero]
    rw [if_pos hi, hf]
    have hr : refIdx e.ref0 = some e.ref0.toNat := by unfold refIdx; rw [if_pos (by omega)]
    simp only [hr, Option.bind_eq_bind, Option.bind_some]
    have : ∃ n, e.ref0.toNat = n + 1 := ⟨e.ref0.toNat - 1, by omega⟩
    obtain ⟨n, hn⟩ := this
    simp only [hn, List.getElem?_cons_succ, List.getElem?_nil, Option.bind_none]
  have ht : ∀ st, temporalScan e st = none := by
    intro st
    unfold temporalScan
    have hg : ∀ b < 22, ∃ w4 h4, K.num_4x4_blocks_wide[b]? = some w4 ∧ K.num_4x4_blocks_high[b]? = some h4 ∧ 0 < w4 ∧ 0 < h4 := by
      have : ∀ b < 22, (decide (0 < K.num_4x4_blocks_wide[b]?.getD 0) && decide (0 < K.num_4x4_blocks_high[b]?.getD 0)) = true := by decide
      intro b hb
      have h := this b hb
      simp only [Bool.and_eq_true, decide_eq_true_eq] at h
      cases h2 : K.num_4x4_blocks_wide[b]? with
      | none => rw [h2] at h; simp at h
      | some w4 =>
        cases h3 : K.num_4x4_blocks_high[b]? with
        | none => rw [h3] at h; simp at h
        | some h4 => rw [h2, h3] at h; exact ⟨w4, h4, rfl, rfl, h⟩
    obtain ⟨w4, h4, e1, e2, p1, p2⟩ := hg e.bsize hb
    rw [e1, e2]
    simp only [Option.bind_eq_bind, Option.bind_some]
    have st0 : ∀ n k, 0 < n → ∃ l, steps n k = 0 :: l := by
      intro n k hn
      obtain ⟨m, rfl⟩ : ∃ m, n = m + 1 := ⟨n - 1, by omega⟩
      refine ⟨((List.range m).map Nat.succ).filter (· % k == 0), ?_⟩
      unfold steps
      rw [List.range_succ_eq_map, List.filter_cons_of_pos (by simp)]
    obtain ⟨l1, q1⟩ := st0 (min h4 16) (if h4 ≥ 16 then 4 else 2) (by omega)
    obtain ⟨l2, q2⟩ := st0 (min w4 16) (if w4 ≥ 16 then 4 else 2) (by omega)
    rw [q1, q2, List.flatMap_cons, List.map_cons, List.cons_append, List.foldlM_cons, hs]
    rfl
  unfold findMvStack
  simp only [ht, Option.bind_eq_bind, Option.bind_none, Option.bind_fun_none]

theorem insert_total (c : Bool) (s : MvStack) (cand : Mv × Mv) (w : Nat) (h : s.Good c) :
    ∃ t, s.insert c cand w = some t ∧ t.Good c := by
  obtain ⟨t, h1, h2, -⟩ := insert_spec c s cand w h
  exact ⟨t, h1, h2⟩

theorem addCandidate_total (e : MvEnv) (he : e.Ready) (mi : StoredMi) (hm : mi.miSize < 22) (w : Nat) (s : MvStack)
    (h : s.Good e.compound) : ∃ t, addCandidate e mi w s = some t := by
  have hidx : ∀ r : Int, 0 ≤ r → r ≤ 7 → ∃ i t, refIdx r = some i ∧ e.gmType[i]? = some t := by
    intro r h1 h7
    have hl : r.toNat < e.gmType.length := by rw [he.gm]; omega
    exact ⟨r.toNat, e.gmType[r.toNat], by unfold refIdx; rw [if_pos (by omega)], List.getElem?_eq_getElem hl⟩
  have hglob : ∀ (r : Int) (g mv : Mv), 0 ≤ r → r ≤ 7 → ∃ m, globalOr e mi r g mv = some m := by
    intro r g mv h1 h7
    obtain ⟨i, t, h2, h3⟩ := hidx r h1 h7
    unfold globalOr
    split
    · exact ⟨_, by simp only [h2, Option.bind_eq_bind, Option.bind_some, h3]; rfl⟩
    · exact ⟨mv, rfl⟩
  have huse : ∃ b, useGlobal e mi = some b := by
    have hw : ∀ b < 22, (K.block_width[b]?).isSome = true ∧ (K.block_height[b]?).isSome = true := by decide
    obtain ⟨h1, h2⟩ := hw mi.miSize hm
    rw [Option.isSome_iff_exists] at h1 h2
    obtain ⟨bw, h1⟩ := h1
    obtain ⟨bh, h2⟩ := h2
    obtain ⟨i, t, h3, h4⟩ := hidx e.ref0 he.refs.1 he.refs.2.1
    unfold useGlobal
    simp only [h1, h2, Option.bind_eq_bind, Option.bind_some]
    split
    · exact ⟨_, by simp only [h3, h4, Option.bind_some]; rfl⟩
    · exact ⟨false, rfl⟩
  have hsing : ∀ (r : Int) (mv : Mv) (s : MvStack), e.compound = false → s.Good e.compound → ∃ t, addSingle e mi r mv w s = some t := by
    intro r mv s hc h
    unfold addSingle
    split
    · obtain ⟨b, hb⟩ := huse
      simp only [hb, Option.bind_eq_bind, Option.bind_some]
      have h1 := (good_flags (s.newCount + (hasNewmv mi.yMode).toNat) true h).1
      rw [hc] at h1
      obtain ⟨t, h2, -⟩ := insert_total false _ (lowerMv e.force (if b then e.globalMvs.1 else mv),
        lowerMv e.force (if b then e.globalMvs.1 else mv)) w h1
      exact ⟨t, h2⟩
    · exact ⟨s, rfl⟩
  unfold addCandidate
  split
  · split
    · rename_i hc
      split
      · obtain ⟨c0, h0⟩ := hglob e.ref0 e.globalMvs.1 mi.mvs.1 he.refs.1 he.refs.2.1
        obtain ⟨c1, h1⟩ := hglob e.ref1 e.globalMvs.2 mi.mvs.2 (he.refs.2.2.2 hc) he.refs.2.2.1
        simp only [h0, h1, Option.bind_eq_bind, Option.bind_some]
        have h2 := (good_flags s.newCount true h).1
        rw [hc] at h2
        obtain ⟨t, h3, -⟩ := insert_total true _ (lowerMv e.force c0, lowerMv e.force c1) w h2
        exact ⟨_, by rw [h3]; rfl⟩
      · exact ⟨s, rfl⟩
    · rename_i hc
      have hc : e.compound = false := by simpa using hc
      obtain ⟨t, h1⟩ := hsing mi.ref0 mi.mvs.1 s hc h
      obtain ⟨u, h2⟩ := hsing mi.ref1 mi.mvs.2 t hc (addSingle_good e mi _ _ _ _ _ hc h h1).1
      exact ⟨u, by simp only [h1, Option.bind_eq_bind, Option.bind_some, h2]⟩
  · exact ⟨s, rfl⟩

theorem blocks4_some (row : Bool) (b : Nat) (hb : b < 22) : ∃ n, blocks4 row b = some n ∧ 0 < n := by
  have : ∀ row : Bool, ∀ b < 22, decide (0 < (blocks4 row b).getD 0) = true := by decide
  have h := this row b hb
  cases h1 : blocks4 row b with
  | none => rw [h1] at h; simp at h
  | some n => rw [h1] at h; exact ⟨n, rfl, by simpa using h⟩

theorem inside_iff (e : MvEnv) (r c : Int) : e.inside r c = true ↔
    (e.colStart : Int) ≤ c ∧ c < e.colEnd ∧ (e.rowStart : Int) ≤ r ∧ r < e.rowEnd := by
  unfold MvEnv.inside; rw [decide_eq_true_iff]

theorem scanLoop_total (e : MvEnv) (he : e.Ready) (row : Bool) (b4 end4 : Nat) (hb : 0 < b4) :
    ∀ (fuel i : Nat) (s : MvStack), end4 ≤ i + fuel → s.Good e.compound → ∃ t, scanLoop e row b4 end4 fuel i s = some t
  | 0, i, s, hf, h => ⟨s, by unfold scanLoop; rw [if_neg (by omega)]⟩
  | fuel + 1, i, s, hf, h => by
    rw [scanLoop]
    split
    · split
      · rename_i hin
        rw [inside_iff] at hin
        obtain ⟨mi, h1, h2⟩ := he.stored (e.scanPos row i).1.toNat (e.scanPos row i).2.toNat
          (by have := he.inRow; omega) (by have := he.inCol; omega)
        obtain ⟨n, h3, h4⟩ := blocks4_some row mi.miSize h2
        simp only [h1, h3, Option.bind_eq_bind, Option.bind_some]
        obtain ⟨t, h5⟩ := addCandidate_total e he mi h2 ((if b4 ≥ 16 then max 4 (min b4 n) else min b4 n) * 2) s h
        rw [h5, Option.bind_some]
        apply scanLoop_total e he row b4 end4 hb fuel _ _ _ (addCandidate_good e mi _ _ _ h h5).1
        split <;> omega
      · exact ⟨s, rfl⟩
    · exact ⟨s, rfl⟩

theorem scan_total (e : MvEnv) (he : e.Ready) (row : Bool) (s : MvStack) (h : s.Good e.compound) : ∃ t, scan e row s = some t := by
  obtain ⟨n, h1, h2⟩ := blocks4_some row e.bsize he.block
  have h3 : ∃ r, usub (if row then e.miCols else e.miRows) (if row then e.miCol else e.miRow) = some r := by
    unfold usub
    have := he.inRow; have := he.inCol
    cases row
    · exact ⟨_, if_pos (by simp; omega)⟩
    · exact ⟨_, if_pos (by simp; omega)⟩
  obtain ⟨r, h3⟩ := h3
  unfold scan
  simp only [h1, h3, Option.bind_eq_bind, Option.bind_some]
  exact scanLoop_total e he row n _ h2 _ _ _ (by omega) h

/-- Vectors small enough that differences do not overflow (AV1 vectors have 16 bits). -/
def smallMv (m : Mv) : Prop := |m.x| < 2 ^ 61 ∧ |m.y| < 2 ^ 61

theorem lower_small (force : Bool) (m : Mv) (h : smallMv m) : |(lowerMv force m).x| < 2 ^ 62 ∧ |(lowerMv force m).y| < 2 ^ 62 := by
  have one : ∀ v : Int, |v| < 2 ^ 61 → |lowerMvPrecision force v| < 2 ^ 62 := by
    intro v hv
    rw [abs_lt] at hv ⊢
    have hn := C47_lower_partial force v
    revert hn
    generalize lowerMvPrecision force v = r
    intro hn
    have hd : 2 * |r - v| ≤ 8 := by
      have h1 := hn.1
      unfold LowersPrecision NearestMultiple at h1
      cases force
      · have := h1.2.1; omega
      · exact h1.2.1
    have hd' : |r - v| ≤ 4 := by omega
    rw [abs_le] at hd'
    constructor <;> omega
  exact ⟨one _ h.1, one _ h.2⟩

theorem farFrom_total (m g : Mv) (hm : |m.x| < 2 ^ 62 ∧ |m.y| < 2 ^ 62) (hg : |g.x| < 2 ^ 62 ∧ |g.y| < 2 ^ 62) :
    ∃ b, farFrom m g = some b := by
  have ok : ∀ a b : Int, |a| < 2 ^ 62 → |b| < 2 ^ 62 → isize (a - b) = some (a - b) := by
    intro a b ha hb
    rw [abs_lt] at ha hb
    unfold isize isizeOk
    rw [if_pos]
    rw [decide_eq_true_iff]
    constructor <;> omega
  unfold farFrom
  rw [ok _ _ hm.1 hg.1, ok _ _ hm.2 hg.2]
  simp only [Option.bind_eq_bind, Option.bind_some]
  split
  · exact ⟨true, rfl⟩
  · exact ⟨_, rfl⟩

theorem temporalSample_total (e : MvEnv) (he : e.Ready) (hf : ∀ i y x m, e.field i y x = some m → smallMv m)
    (hg : smallMv e.globalMvs.1 ∧ smallMv e.globalMvs.2) (dr dc : Nat) (s : MvStack) (z : Nat) (h : s.Good e.compound) :
    ∃ t z', temporalSample e dr dc (s, z) = some (t, z') := by
  have wk : ∀ m, smallMv m → |m.x| < 2 ^ 62 ∧ |m.y| < 2 ^ 62 := fun m hm => ⟨by have := hm.1; omega, by have := hm.2; omega⟩
  have hz : ∀ (b : Bool) (z : Nat) (o : Option Nat), (∃ v, o = some v) → ∃ v, firstZero b z o = some v := by
    intro b z o ho
    unfold firstZero
    cases b
    · exact ⟨z, rfl⟩
    · exact ho
  unfold temporalSample
  dsimp only
  split
  · rename_i hin
    rw [inside_iff] at hin
    have rows := he.inRow
    have cols := he.inCol
    have hr : ∀ r : Int, 0 ≤ r → refIdx r = some r.toNat := fun r hr => by unfold refIdx; rw [if_pos (by omega)]
    have hfield : ∀ r : Int, 0 ≤ r → r ≤ 7 → ∃ m, e.field r.toNat (((e.miRow + dr) ||| 1) >>> 1) (((e.miCol + dc) ||| 1) >>> 1) = some m := by
      intro r h1 h7
      have := he.field r.toNat ((e.miRow + dr) ||| 1) ((e.miCol + dc) ||| 1) (by omega) (by omega) (by omega)
      simpa only [Nat.shiftRight_eq_div_pow, Nat.pow_one] using this
    obtain ⟨m0, e0⟩ := hfield e.ref0 he.refs.1 he.refs.2.1
    have s0 := hf _ _ _ _ e0
    simp only [hr e.ref0 he.refs.1, e0, Option.bind_eq_bind, Option.bind_some]
    obtain ⟨f0, hf0⟩ := farFrom_total (lowerMv e.force m0) e.globalMvs.1 (lower_small _ _ s0) (wk _ hg.1)
    split
    · rename_i hc
      obtain ⟨m1, e1⟩ := hfield e.ref1 (he.refs.2.2.2 hc) he.refs.2.2.1
      have s1 := hf _ _ _ _ e1
      simp only [hr e.ref1 (he.refs.2.2.2 hc), e1, Option.bind_some]
      split
      · obtain ⟨f1, hf1⟩ := farFrom_total (lowerMv e.force m1) e.globalMvs.2 (lower_small _ _ s1) (wk _ hg.2)
        have hp : ∃ v, farPair e (lowerMv e.force m0) (lowerMv e.force m1) = some v := by
          unfold farPair
          simp only [hf0, hf1, Option.bind_eq_bind, Option.bind_some]
          split
          · exact ⟨1, rfl⟩
          · exact ⟨_, rfl⟩
        obtain ⟨v, hv⟩ := hz (decide (dr = 0 ∧ dc = 0)) (if dr = 0 ∧ dc = 0 then 1 else z) _ hp
        rw [hc] at h
        obtain ⟨t, ht, -⟩ := insert_total true s (lowerMv e.force m0, lowerMv e.force m1) 2 h
        exact ⟨t, v, by rw [hv, ht]; rfl⟩
      · exact ⟨_, _, rfl⟩
    · rename_i hc
      have hc : e.compound = false := by simpa using hc
      split
      · obtain ⟨v, hv⟩ := hz (decide (dr = 0 ∧ dc = 0)) (if dr = 0 ∧ dc = 0 then 1 else z)
          ((farFrom (lowerMv e.force m0) e.globalMvs.1).map Bool.toNat) ⟨_, by rw [hf0]; rfl⟩
        rw [hc] at h
        obtain ⟨t, ht, -⟩ := insert_total false s (lowerMv e.force m0, lowerMv e.force m0) 2 h
        exact ⟨t, v, by rw [hv, ht]; rfl⟩
      · exact ⟨_, _, rfl⟩
  · exact ⟨s, z, rfl⟩

theorem search_total (e : MvEnv) (s : MvStack) (he : e.Ready) (hr : s.refs.length = 8) (hw : s.weights.length = 8)
    (hf : ∀ i y x m, e.field i y x = some m → smallMv m) (hg : smallMv e.globalMvs.1 ∧ smallMv e.globalMvs.2)
    (hp : ∀ bw4 bh4, K.num_4x4_blocks_wide[e.bsize]? = some bw4 → K.num_4x4_blocks_high[e.bsize]? = some bh4 →
      max bw4 bh4 ≤ 16 → 1 ≤ e.miRow ∧ ∃ mi, e.at_ (e.miRow - 1) (e.miCol + bw4) = some mi) :
    ∃ r, findMvStack e s = some r := by
  have g0 : ({ s with found := 0, newCount := 0, foundMatch := false } : MvStack).Good e.compound :=
    ⟨hr, hw, Nat.zero_le _, List.nodup_nil⟩
  obtain ⟨s1, h1⟩ := scan_total e he true _ g0
  obtain ⟨g1, -⟩ := scan_good e true _ _ g0 h1
  have g1' := (good_flags s1.newCount false g1).1
  obtain ⟨s2, h2⟩ := scan_total e he false _ g1'
  obtain ⟨g2, -⟩ := scan_good e false _ _ g1' h2
  have g2' := (good_flags s2.newCount false g2).1
  have h3 : ∃ s3, scanPoint e { s2 with foundMatch := false } = some s3 := by
    obtain ⟨bw4, e1, -⟩ := blocks4_some true e.bsize he.block
    obtain ⟨bh4, e2, -⟩ := blocks4_some false e.bsize he.block
    have e1 : K.num_4x4_blocks_wide[e.bsize]? = some bw4 := e1
    have e2 : K.num_4x4_blocks_high[e.bsize]? = some bh4 := e2
    unfold scanPoint
    simp only [e1, e2, Option.bind_eq_bind, Option.bind_some]
    split
    · rename_i h16
      obtain ⟨hp1, mi, h4⟩ := hp bw4 bh4 e1 e2 h16
      have hu : usub e.miRow 1 = some (e.miRow - 1) := by unfold usub; rw [if_pos hp1]
      simp only [hu, h4, Option.bind_some]
      split
      · rename_i hin
        have hin := hin.1
        simp only [MvEnv.inside, decide_eq_true_eq] at hin
        have hc := he.inCol
        have hr' := he.inRow
        obtain ⟨mi', h4', h5⟩ := he.stored (e.miRow - 1) (e.miCol + bw4) (by omega) (by omega)
        rw [h4] at h4'
        obtain rfl := Option.some.inj h4'
        exact addCandidate_total e he mi h5 4 _ g2'
      · exact ⟨_, rfl⟩
    · exact ⟨_, rfl⟩
  obtain ⟨s3, h3⟩ := h3
  obtain ⟨g3, -⟩ := scanPoint_good e _ _ g2' h3
  have h4 : ∃ s4, bumpWeights s3 = some s4 := by
    unfold bumpWeights
    rw [if_neg (by have := g3.weights; have := g3.found; omega)]
    exact ⟨_, rfl⟩
  obtain ⟨s4, h4⟩ := h4
  obtain ⟨g4, -⟩ := bump_good _ _ _ g3 h4
  have h5 : ∃ r, temporalScan e (s4, 0) = some r := by
    obtain ⟨bw4, e1, -⟩ := blocks4_some true e.bsize he.block
    obtain ⟨bh4, e2, -⟩ := blocks4_some false e.bsize he.block
    have e1 : K.num_4x4_blocks_wide[e.bsize]? = some bw4 := e1
    have e2 : K.num_4x4_blocks_high[e.bsize]? = some bh4 := e2
    unfold temporalScan
    simp only [e1, e2, Option.bind_eq_bind, Option.bind_some]
    generalize (steps (min bh4 16) (if bh4 ≥ 16 then 4 else 2)).flatMap _ = grid
    clear h4
    generalize 0 = z
    induction grid generalizing s4 z with
    | nil => exact ⟨_, rfl⟩
    | cons d grid ih =>
      obtain ⟨u, zu, hu⟩ := temporalSample_total e he hf hg d.1 d.2 s4 z g4
      obtain ⟨gu, -⟩ := temporalSample_good e _ _ _ _ _ _ g4 hu
      obtain ⟨r, hr⟩ := ih u gu zu
      exact ⟨r, by rw [List.foldlM_cons, hu]; exact hr⟩
  obtain ⟨⟨s5, z⟩, h5⟩ := h5
  refine ⟨(s5, z, (s1.foundMatch || s3.foundMatch).toNat + s2.foundMatch.toNat), ?_⟩
  unfold findMvStack
  simp only [h1, h2, h3, h4, h5, Option.bind_eq_bind, Option.bind_some]

/-- The search ends normally from the second row on if the block to the upper right exists (or is not looked at). -/
theorem C66_inner_partial (e : MvEnv) (s : MvStack) (he : e.Ready) (hr : s.refs.length = 8) (hw : s.weights.length = 8)
    (hf : ∀ i y x m, e.field i y x = some m → smallMv m) (hg : smallMv e.globalMvs.1 ∧ smallMv e.globalMvs.2)
    (hp : ∀ bw4 bh4, K.num_4x4_blocks_wide[e.bsize]? = some bw4 → K.num_4x4_blocks_high[e.bsize]? = some bh4 →
      max bw4 bh4 ≤ 16 → 1 ≤ e.miRow ∧ e.miCol + bw4 < e.miCols) :
    ∃ r, findMvStack e s = some r := by
  refine search_total e s he hr hw hf hg fun bw4 bh4 h1 h2 h3 => ?_
  obtain ⟨hp1, hp2⟩ := hp bw4 bh4 h1 h2 h3
  obtain ⟨mi, h4, -⟩ := he.stored (e.miRow - 1) (e.miCol + bw4) (by have := he.inRow; omega) hp2
  exact ⟨hp1, mi, h4⟩

/-- **C66**, the exact condition, with all blocks of the frame stored and no others: blocks with a side of more than 64 samples
can always be searched for; all others exactly if they are neither in the first row nor at the right edge of the frame. -/
theorem C66_iff (e : MvEnv) (s : MvStack) (he : e.Ready) (hr : s.refs.length = 8) (hw : s.weights.length = 8)
    (hf : ∀ i y x m, e.field i y x = some m → smallMv m) (hg : smallMv e.globalMvs.1 ∧ smallMv e.globalMvs.2)
    (ho : ∀ r c mi, e.at_ r c = some mi → c < e.miCols) (bw4 bh4 : Nat)
    (h1 : K.num_4x4_blocks_wide[e.bsize]? = some bw4) (h2 : K.num_4x4_blocks_high[e.bsize]? = some bh4) :
    (∃ r, findMvStack e s = some r) ↔ 16 < max bw4 bh4 ∨ (1 ≤ e.miRow ∧ e.miCol + bw4 < e.miCols) := by
  constructor
  · rintro ⟨r, h⟩
    by_cases h16 : 16 < max bw4 bh4
    · exact Or.inl h16
    · right
      unfold findMvStack at h
      obtain ⟨s1, -, h⟩ := Option.bind_eq_some_iff.1 h
      obtain ⟨s2, -, h⟩ := Option.bind_eq_some_iff.1 h
      obtain ⟨s3, h3, -⟩ := Option.bind_eq_some_iff.1 h
      unfold scanPoint at h3
      simp only [h1, h2, Option.bind_eq_bind, Option.bind_some] at h3
      rw [if_pos (by omega)] at h3
      obtain ⟨k, hk, h3⟩ := Option.bind_eq_some_iff.1 h3
      obtain ⟨mi, hm, -⟩ := Option.bind_eq_some_iff.1 h3
      refine ⟨?_, ho _ _ _ hm⟩
      unfold usub at hk
      by_contra hc
      rw [if_neg hc] at hk
      cases hk
  · intro h
    refine C66_inner_partial e s he hr hw hf hg fun a b ha hb hm => ?_
    rw [h1] at ha; rw [h2] at hb
    obtain rfl := Option.some.inj ha
    obtain rfl := Option.some.inj hb
    rcases h with h | h
    · omega
    · exact h

/-- An 8×8 block of a 64×64 frame in which every block refers to LAST with vector (8, 2). -/
def sampleEnv (row col : Nat) : MvEnv where
  bsize := 3
  ref0 := 1
  ref1 := -1
  compound := false
  force := false
  gmType := List.replicate 8 0
  globalMvs := (⟨0, 0⟩, ⟨0, 0⟩)
  miRow := row
  miCol := col
  miRows := 16
  miCols := 16
  rowStart := 0
  rowEnd := 16
  colStart := 0
  colEnd := 16
  at_ := fun r c => if r < 16 ∧ c < 16 then
    some ⟨⟨3, 0, 0, true, false, false, true, 0, 0, 1, -1, 0, 0, [0, 0, 0], [0, 0, 0], [0, 0, 0], 0, 0, 17⟩, 0, ⟨8, 2⟩, ⟨0, 0⟩⟩
    else none
  field := fun i y x => if i < 8 ∧ y < 8 ∧ x < 8 then some ⟨6, 4⟩ else none

def emptyStack : MvStack := ⟨0, 0, false, List.replicate 8 (⟨0, 0⟩, ⟨0, 0⟩), List.replicate 8 0⟩

theorem sampleEnv_ready (row col : Nat) (hr : row < 16) (hc : col < 16) : (sampleEnv row col).Ready where
  block := by show 3 < 22; omega
  inRow := ⟨Nat.zero_le _, hr, Nat.le_refl _⟩
  inCol := ⟨Nat.zero_le _, hc, Nat.le_refl _⟩
  refs := ⟨(by decide : (0 : Int) ≤ 1), (by decide : (1 : Int) ≤ 7), (by decide : (-1 : Int) ≤ 7), nofun⟩
  gm := rfl
  stored := fun r c h1 h2 => ⟨_, if_pos ⟨h1, h2⟩, by decide⟩
  field := fun i r c hi h1 h2 => ⟨_, if_pos ⟨hi, by
    have h1 : r < 16 := h1
    omega, by
    have h2 : c < 16 := h2
    omega⟩⟩

theorem C66_negation : ¬ C66_full := by
  intro h
  obtain ⟨r, hr⟩ := h (sampleEnv 0 4) emptyStack (sampleEnv_ready 0 4 (by omega) (by omega)) rfl rfl
  rw [C66_first_row _ _ rfl (by
    intro w h hd
    have : some (8, 8) = some (w, h) := hd
    cases this; decide) (by decide)] at hr
  cases hr

/-- At the right edge of a frame the search panics in every row. -/
example (row : Nat) (h : row < 16) : ¬ ∃ r, findMvStack (sampleEnv row 14) emptyStack = some r := by
  have hz : ∀ i y x m, (sampleEnv row 14).field i y x = some m → smallMv m := by
    intro i y x m h
    simp only [sampleEnv] at h
    split at h
    · obtain rfl := Option.some.inj h; unfold smallMv; decide
    · cases h
  rw [C66_iff (sampleEnv row 14) emptyStack (sampleEnv_ready row 14 h (by omega)) rfl rfl hz
    (by simp [smallMv, sampleEnv]) ?_ 2 2 rfl rfl]
  · simp [sampleEnv]
  · intro r c mi h
    simp only [sampleEnv] at h ⊢
    by_cases hh : r < 16 ∧ c < 16
    · exact hh.2
    · rw [if_neg hh] at h; cases h

/-- One close candidate found three times and a temporal one. -/
example : (findMvStack (sampleEnv 4 4) emptyStack).map (fun r => (r.1.keys false, r.1.live, r.2)) =
    some ([(⟨8, 2⟩, none), (⟨6, 4⟩, none)], [4 + 4 + 4 + 640, 2], 0, 2) := by decide +kernel

end Av1
