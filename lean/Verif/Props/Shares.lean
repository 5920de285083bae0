import Verif.Props.Hyperpath
import Verif.Proofs.Shares

/-!
C43: distribution of the trips of a pair over the stops of the origin, `get_assignment` in `assignment.py`.
-/

set_option linter.unusedSectionVars false

namespace Sidermit

section Generic

variable {K : Type} [Field K] [LinearOrder K] [IsStrictOrderedRing K]

/-- the two stops that are looked at -/
theorem stopPair_aux : ∀ (l : List (StopNode K)) (o1 o2 : Option (StopNode K)),
    l.Nodup → (∀ s ∈ l, some s ≠ o1 ∧ some s ≠ o2) → (∀ s, o1 = some s → o2 = some s → False) →
    (∀ s, o1 = some s → s.mode.d = 1) →
    let r := l.foldl stopPairStep (o1, o2)
    (∀ s, r.1 = some s → (s ∈ l ∨ o1 = some s) ∧ s.mode.d = 1) ∧
    (∀ s, r.2 = some s → s ∈ l ∨ o2 = some s) ∧
    (∀ s, r.1 = some s → r.2 = some s → False) ∧
    (r.1 = none → r.2 = none → l = [] ∧ o1 = none ∧ o2 = none)
  | [], o1, o2, _, _, h1, h2 => by
    intro r
    exact ⟨fun s h => ⟨Or.inr h, h2 s h⟩, fun s h => Or.inr h, h1, fun h h' => ⟨rfl, h, h'⟩⟩
  | a :: l, o1, o2, hnd, hout, h1, h2 => by
    intro r
    rw [List.nodup_cons] at hnd
    have hl : ∀ s ∈ l, some s ≠ o1 ∧ some s ≠ o2 := fun s hs => hout s (List.mem_cons_of_mem _ hs)
    have hal : ∀ s ∈ l, some s ≠ some a := fun s hs h => hnd.1 (Option.some.inj h ▸ hs)
    have ha := hout a (by simp)
    have hstep : stopPairStep (o1, o2) a = (some a, o2) ∧ o1 = none ∧ a.mode.d = 1 ∨
        stopPairStep (o1, o2) a = (o1, some a) := by
      unfold stopPairStep
      by_cases hd : a.mode.d = 1
      · rw [if_pos hd]
        cases o1 with
        | none => exact Or.inl ⟨rfl, rfl, hd⟩
        | some s => exact Or.inr rfl
      · rw [if_neg hd]
        exact Or.inr rfl
    rcases hstep with ⟨hs, ho, hd⟩ | hs
    · have hr : r = l.foldl stopPairStep (some a, o2) := by
        change (a :: l).foldl stopPairStep (o1, o2) = _
        rw [List.foldl_cons, hs]
      rw [hr]
      obtain ⟨g1, g2, g3, g4⟩ := stopPair_aux l (some a) o2 hnd.2 (fun s hs => ⟨hal s hs, (hl s hs).2⟩)
        (fun s h h' => ha.2 (by rw [h', h])) (fun s h => by rw [← Option.some.inj h]; exact hd)
      refine ⟨?_, ?_, g3, ?_⟩
      · intro s h
        refine ⟨?_, (g1 s h).2⟩
        rcases (g1 s h).1 with h' | h'
        · exact Or.inl (List.mem_cons_of_mem _ h')
        · rw [Option.some.inj h']
          exact Or.inl (by simp)
      · intro s h
        rcases g2 s h with h' | h'
        · exact Or.inl (List.mem_cons_of_mem _ h')
        · exact Or.inr h'
      · intro h h'
        exact absurd (g4 h h').2.1 (by simp)
    · have hr : r = l.foldl stopPairStep (o1, some a) := by
        change (a :: l).foldl stopPairStep (o1, o2) = _
        rw [List.foldl_cons, hs]
      rw [hr]
      obtain ⟨g1, g2, g3, g4⟩ := stopPair_aux l o1 (some a) hnd.2 (fun s hs => ⟨(hl s hs).1, hal s hs⟩)
        (fun s h h' => ha.1 (by rw [h, h'])) h2
      refine ⟨?_, ?_, g3, ?_⟩
      · intro s h
        refine ⟨?_, (g1 s h).2⟩
        rcases (g1 s h).1 with h' | h'
        · exact Or.inl (List.mem_cons_of_mem _ h')
        · exact Or.inr h'
      · intro s h
        rcases g2 s h with h' | h'
        · exact Or.inl (List.mem_cons_of_mem _ h')
        · rw [Option.some.inj h']
          exact Or.inl (by simp)
      · intro h h'
        exact absurd (g4 h h').2.2 (by simp)

theorem stopPair_spec {l : List (StopNode K)} (hnd : l.Nodup) :
    (∀ s, (stopPair l).1 = some s → s ∈ l ∧ s.mode.d = 1) ∧ (∀ s, (stopPair l).2 = some s → s ∈ l) ∧
    (∀ s, (stopPair l).1 = some s → (stopPair l).2 = some s → False) ∧
    ((stopPair l).1 = none → (stopPair l).2 = none → l = []) := by
  obtain ⟨h1, h2, h3, h4⟩ := stopPair_aux l none none hnd (fun s _ => ⟨by simp, by simp⟩) (fun s h => by cases h)
    (fun s h => by cases h)
  refine ⟨fun s h => ⟨(h1 s h).1.resolve_right (by simp), (h1 s h).2⟩, fun s h => (h2 s h).resolve_right (by simp), h3,
    fun h h' => (h4 h h').1⟩

/-- the shares are right: none out of [0, 100], nothing to other stops, and together 100 -/
structure SharesOk (stops : List (StopNode K)) (a : Dict (StopNode K) K) : Prop where
  range : ∀ s, 0 ≤ a.getD s 0 ∧ a.getD s 0 ≤ 100
  other : ∀ s, s ∉ stops → a.getD s 0 = 0
  sum : (stops.map fun s => a.getD s 0).sum = 100

theorem sum_single {l : List (StopNode K)} (hnd : l.Nodup) {s : StopNode K} (hs : s ∈ l) (F : StopNode K → K)
    (h : ∀ t ∈ l, t ≠ s → F t = 0) : (l.map F).sum = F s := by
  induction l with
  | nil => cases hs
  | cons a l ih =>
    rw [List.nodup_cons] at hnd
    rw [List.map_cons, List.sum_cons]
    rcases List.mem_cons.1 hs with rfl | hs
    · rw [List.sum_eq_zero, add_zero]
      intro x hx
      obtain ⟨t, ht, rfl⟩ := List.mem_map.1 hx
      exact h t (List.mem_cons_of_mem _ ht) (fun e => hnd.1 (e ▸ ht))
    · rw [ih hnd.2 hs (fun t ht hne => h t (List.mem_cons_of_mem _ ht) hne), h a (by simp) (fun e => hnd.1 (e ▸ hs)), zero_add]

theorem SharesOk.one {l : List (StopNode K)} (hnd : l.Nodup) {s : StopNode K} (hs : s ∈ l) :
    SharesOk l [(s, (100 : K))] := by
  have hg : ∀ t, Dict.getD [(s, (100 : K))] t 0 = if s = t then 100 else 0 := by
    intro t
    unfold Dict.getD
    rw [Dict.get?_cons]
    split <;> rfl
  refine ⟨?_, ?_, ?_⟩
  · intro t
    rw [hg]
    split <;> norm_num
  · intro t ht
    rw [hg, if_neg]
    rintro rfl
    exact ht hs
  · rw [sum_single hnd hs _ (fun t _ hne => by rw [hg, if_neg (Ne.symm hne)]), hg, if_pos rfl]

theorem SharesOk.two {l : List (StopNode K)} (hnd : l.Nodup) {s1 s2 : StopNode K} (h1 : s1 ∈ l) (h2 : s2 ∈ l) (hne : s1 ≠ s2)
    {q : K} (hq : 0 ≤ q ∧ q ≤ 100) : SharesOk l (two s1 s2 q) := by
  obtain ⟨g1, g2⟩ := two_getD hne q
  have hg : ∀ t, t ≠ s1 → t ≠ s2 → (Sidermit.two s1 s2 q).getD t 0 = 0 := by
    intro t h h'
    unfold Sidermit.two Dict.getD
    rw [Dict.get?_set_ne _ _ h', Dict.get?_set_ne _ _ h]
    rfl
  refine ⟨?_, ?_, ?_⟩
  · intro t
    by_cases e1 : t = s1
    · rw [e1, g1]
      exact hq
    · by_cases e2 : t = s2
      · rw [e2, g2]
        exact ⟨by linarith [hq.2], by linarith [hq.1]⟩
      · rw [hg t e1 e2]
        norm_num
  · intro t ht
    exact hg t (fun e => ht (e ▸ h1)) (fun e => ht (e ▸ h2))
  · have : (fun t => (Sidermit.two s1 s2 q).getD t 0) = fun t => (if t = s1 then q else 0) + (if t = s2 then 100 - q else 0) := by
      funext t
      by_cases e1 : t = s1
      · rw [e1, g1, if_pos rfl, if_neg hne, add_zero]
      · by_cases e2 : t = s2
        · rw [e2, g2, if_pos rfl, if_neg hne.symm, zero_add]
        · rw [hg t e1 e2, if_neg e1, if_neg e2, add_zero]
    rw [this, List.sum_map_add, sum_single hnd h1 _ (fun t _ h => if_neg h), sum_single hnd h2 _ (fun t _ h => if_neg h),
      if_pos rfl, if_pos rfl]
    ring

variable {p vp spa spv : K} {label : ENode K → WithTop K} {stops : List (StopNode K)}

/-- C43: the shares of the stops of a pair are between 0 and 100 and add up to 100 - unless there is a tie between a stop
with one line and another stop; then the shares are empty. -/
theorem C43_shares_partial (hnd : stops.Nodup) (hne : stops ≠ []) (hlab : ∀ s ∈ stops, label (.stop s) ≠ ⊤)
    (hd : ∀ s ∈ stops, 1 ≤ s.mode.d) (hp : 0 < p) (hvp : 0 ≤ vp) (hspa : 0 < spa) (hspv : 0 < spv) :
    ∃ a, sharesOf stops label p vp spa spv = .ok a ∧ (SharesOk stops a ∨
      (a = [] ∧ ∃ s1 ∈ stops, ∃ s2 ∈ stops, s1 ≠ s2 ∧ s1.mode.d = 1 ∧ ∃ l1 l2 : K, label (.stop s1) = (l1 : WithTop K) ∧
        label (.stop s2) = (l2 : WithTop K) ∧ Tie p vp spa spv s2.mode.d l1 l2)) := by
  obtain ⟨h1, h2, h3, h4⟩ := stopPair_spec hnd
  unfold sharesOf
  cases e1 : (stopPair stops).1 with
  | none =>
    cases e2 : (stopPair stops).2 with
    | none => exact absurd (h4 e1 e2) hne
    | some s2 =>
      have : stopPair stops = (none, some s2) := Prod.ext e1 e2
      rw [this]
      exact ⟨_, rfl, Or.inl (SharesOk.one hnd (h2 s2 e2))⟩
  | some s1 =>
    cases e2 : (stopPair stops).2 with
    | none =>
      have : stopPair stops = (some s1, none) := Prod.ext e1 e2
      rw [this]
      exact ⟨_, rfl, Or.inl (SharesOk.one hnd (h1 s1 e1).1)⟩
    | some s2 =>
      have : stopPair stops = (some s1, some s2) := Prod.ext e1 e2
      rw [this]
      simp only
      have m1 := (h1 s1 e1).1
      have m2 := h2 s2 e2
      have hs : s1 ≠ s2 := fun e => h3 s1 e1 (by rw [e2, e])
      obtain ⟨l1, hl1⟩ := WithTop.ne_top_iff_exists.1 (hlab s1 m1)
      obtain ⟨l2, hl2⟩ := WithTop.ne_top_iff_exists.1 (hlab s2 m2)
      rw [← hl1, ← hl2]
      have hD := hd s2 m2
      have hDK : (0 : K) < (s2.mode.d : K) := by exact_mod_cast hD
      obtain ⟨a, ha, hc⟩ := sharesTwo_cases (s1 := s1) (s2 := s2) (l1 := l1) (l2 := l2) hvp hspa hspv hp hD
      refine ⟨a, ha, ?_⟩
      have hbound : ∀ {δ P : K}, 0 ≤ δ + P → δ < p / 2 → P < p / 2 → 0 ≤ (δ + P) / p * 100 ∧ (δ + P) / p * 100 ≤ 100 := by
        intro δ P h0 hδ hP
        have hq : (δ + P) / p ≤ 1 := by
          rw [div_le_one hp]
          linarith
        have hq0 : 0 ≤ (δ + P) / p := div_nonneg h0 hp.le
        exact ⟨by positivity, by linarith⟩
      rcases hc with ⟨_, _, rfl⟩ | ⟨hl, hδ, k, hk, h5, _, rfl⟩ | ⟨_, _, _, _, rfl⟩ | ⟨ht, rfl⟩ | ⟨_, _, rfl⟩ | ⟨_, _, _, rfl⟩ |
        ⟨hl, he, h5, rfl⟩
      · exact Or.inl (SharesOk.one hnd m1)
      · refine Or.inl (SharesOk.two hnd m1 m2 hs (hbound ?_ hδ (loopPos_le hp hk).2))
        exact add_nonneg (indifference_nonneg hvp hspa hspv hl) (loopPos_le hp hk).1.le
      · exact Or.inl (SharesOk.one hnd m1)
      · exact Or.inr ⟨rfl, s1, m1, s2, m2, hs, (h1 s1 e1).2, l1, l2, hl1.symm, hl2.symm, ht⟩
      · exact Or.inl (SharesOk.one hnd m2)
      · exact Or.inl (SharesOk.one hnd m2)
      · refine Or.inl (SharesOk.two hnd m1 m2 hs (hbound ?_ ?_ (loopPos_le hp (k := 0) (by omega)).2))
        · linarith
        · exact (indifference_neg hvp hspa hspv hl.le).trans_lt (by linarith)

/-- the two orders of the stops of two modes, one of them with one line -/
theorem sharesOf_two {s1 s2 : StopNode K} (h1 : s1.mode.d = 1) :
    sharesOf [s1, s2] label p vp spa spv = sharesTwo s1 s2 (label (.stop s1)) (label (.stop s2)) p vp spa spv ∧
    (s2.mode.d ≠ 1 →
      sharesOf [s2, s1] label p vp spa spv = sharesTwo s1 s2 (label (.stop s1)) (label (.stop s2)) p vp spa spv) := by
  refine ⟨?_, ?_⟩
  · unfold sharesOf stopPair
    simp only [List.foldl_cons, List.foldl_nil, stopPairStep, h1, if_true]
    split_ifs <;> rfl
  · intro h2
    unfold sharesOf stopPair
    simp only [List.foldl_cons, List.foldl_nil, stopPairStep, h1, h2, if_true, if_false]

/-- C43 does not hold when there is a tie: no stop gets a share, and the trips of the pair are lost -/
theorem C43_tie_loses_trips {s1 s2 : StopNode K} (h1 : s1.mode.d = 1) (hd : 1 ≤ s2.mode.d) (hp : 0 < p) (hvp : 0 ≤ vp)
    (hspa : 0 < spa) (hspv : 0 < spv) {l1 l2 : K} (hl1 : label (.stop s1) = (l1 : WithTop K))
    (hl2 : label (.stop s2) = (l2 : WithTop K)) (ht : Tie p vp spa spv s2.mode.d l1 l2) :
    sharesOf [s1, s2] label p vp spa spv = .ok [] := by
  rw [(sharesOf_two h1).1, hl1, hl2]
  obtain ⟨a, ha, hc⟩ := sharesTwo_cases (s1 := s1) (s2 := s2) (l1 := l1) (l2 := l2) hvp hspa hspv hp hd
  rw [ha]
  obtain ⟨hle, heq⟩ := ht
  have hlast : lastLine p s2.mode.d < p / 2 := by
    unfold lastLine
    split
    · linarith
    · next h =>
      have := (loopPos_le (p := p) (D := s2.mode.d) hp (k := (s2.mode.d / 2).toNat - 1) (by omega)).2
      unfold loopPos at this
      have hc : (((s2.mode.d / 2).toNat - 1 : ℕ) : K) = ((s2.mode.d / 2 : Int) : K) - 1 := by
        rw [Nat.cast_sub (by omega)]
        have h : (((s2.mode.d / 2).toNat : ℕ) : Int) = s2.mode.d / 2 := Int.toNat_of_nonneg (by omega)
        rw [← h]
        push_cast
        rfl
      rw [hc] at this
      have e : (((s2.mode.d / 2 : Int) : K) - 1 / 2) * (p / (s2.mode.d : K)) =
          (((s2.mode.d / 2 : Int) : K) - 1 + 1 / 2) * (p / (s2.mode.d : K)) := by ring
      rw [e]
      exact this
  rcases hc with ⟨_, h, rfl⟩ | ⟨hl, hδ, k, hk, h5, _, rfl⟩ | ⟨_, _, _, h, rfl⟩ | ⟨_, rfl⟩ | ⟨h, _⟩ | ⟨h, _⟩ | ⟨h, _⟩
  · rw [heq] at h
    exact absurd hlast (not_lt.2 h)
  · exfalso
    rw [heq] at h5
    unfold lastLine at h5
    rw [if_neg (by omega)] at h5
    have hz : 0 < p / (s2.mode.d : K) := div_pos hp (by exact_mod_cast hd)
    unfold loopPos at h5
    have hk' : (k : K) + 1 ≤ ((s2.mode.d / 2 : Int) : K) := by
      have : (k : Int) + 1 ≤ s2.mode.d / 2 := by omega
      exact_mod_cast this
    have := lt_of_mul_lt_mul_right h5 hz.le
    linarith
  · rw [heq] at h
    exact absurd h (lt_irrefl _)
  · rfl
  · exact absurd h (not_lt.2 hle)
  · exact absurd h (not_lt.2 hle)
  · exact absurd h (not_lt.2 hle)

/-- C43: what the shares mean.  Without a tie, the share of the stop in the middle of the street is the part of the street
where it is not worse to walk to it than to a line of the other stop - if the lines of the other stop are even in number, or
one, or the other stop has the smaller label. -/
theorem C43_walk {s1 s2 : StopNode K} (hne : s1 ≠ s2) (hd : 1 ≤ s2.mode.d) (hp : 0 < p) (hvp : 0 < vp) (hspa : 0 < spa)
    (hspv : 0 < spv) {l1 l2 : K} (ht : ¬ Tie p vp spa spv s2.mode.d l1 l2)
    (hlines : s2.mode.d % 2 = 0 ∨ s2.mode.d = 1 ∨ l2 < l1) {a : Dict (StopNode K) K}
    (ha : sharesTwo s1 s2 (l1 : WithTop K) (l2 : WithTop K) p vp spa spv = .ok a) {y : K} (hy : |y| ≤ p / 2) :
    (|y| < a.getD s1 0 / 100 * (p / 2) → ∀ i, i < s2.mode.d.toNat →
      costFrom vp spa spv l1 y 0 ≤ costFrom vp spa spv l2 y (linePosition p s2.mode.d i)) ∧
    (a.getD s1 0 / 100 * (p / 2) < |y| → ∃ i, i < s2.mode.d.toNat ∧
      costFrom vp spa spv l2 y (linePosition p s2.mode.d i) ≤ costFrom vp spa spv l1 y 0) := by
  obtain ⟨a', ha', hc⟩ := sharesTwo_cases (s1 := s1) (s2 := s2) (l1 := l1) (l2 := l2) hvp.le hspa hspv hp hd
  rw [ha] at ha'
  cases ha'
  simp only [(cost_le hvp hspa hspv _ _).1, (cost_le hvp hspa hspv _ _).2]
  set δ := indifference vp spa spv l1 l2 with hδ
  have hall : Dict.getD [(s1, (100 : K))] s1 0 = 100 := by
    unfold Dict.getD
    rw [Dict.get?_cons, if_pos rfl]
    rfl
  have hnone : Dict.getD [(s2, (100 : K))] s1 0 = 0 := by
    unfold Dict.getD
    rw [Dict.get?_cons, if_neg hne.symm]
    rfl
  have hhalf : ∀ P : K, (δ + P) / p * 100 / 100 * (p / 2) = (δ + P) / 2 := by
    intro P
    field_simp
  have hone : s2.mode.d = 1 → ∀ i, i < s2.mode.d.toNat → linePosition p s2.mode.d i = (0 : K) := by
    intro h i hi
    rw [h] at hi ⊢
    have : i = 0 := by
      simp at hi
      exact hi
    subst this
    simp [linePosition]
  rcases hc with ⟨_, h, rfl⟩ | ⟨hl, hb, k, hk, h5, h6, rfl⟩ | ⟨hl, _, h5, h6, rfl⟩ | ⟨h, _⟩ | ⟨h, ho, rfl⟩ | ⟨h, he, h5, rfl⟩ |
    ⟨h, he, h5, rfl⟩
  · rw [hall]
    refine ⟨fun _ i _ => (abs_bounds y _).2.2.trans (hy.trans h), fun h' => ?_⟩
    exact absurd hy (not_le.2 (by linarith))
  · rw [(two_getD hne _).1, hhalf]
    have he : s2.mode.d % 2 = 0 := by
      rcases hlines with h | h | h
      · exact h
      · omega
      · exact absurd h (not_lt.2 hl)
    exact half_width he hp hk h5 h6 y
  · rw [hall]
    refine ⟨fun _ i hi => (abs_bounds y _).1.trans ?_, fun h' => absurd hy (not_le.2 (by linarith))⟩
    rcases hlines with h | h | h
    · obtain ⟨k, hk, hki⟩ := (even_positions (p := p) h).1 i hi
      have hpos := (loopPos_le (p := p) (D := s2.mode.d) hp hk).1
      have : |linePosition p s2.mode.d i| = loopPos (p / (s2.mode.d : K)) k := by
        rcases hki with h | h
        · rw [h, abs_of_pos hpos]
        · rw [h, abs_neg, abs_of_pos hpos]
      rw [this]
      exact h5 k hk
    · rw [hone h i hi, abs_zero]
      exact indifference_nonneg hvp.le hspa hspv hl
    · exact absurd h (not_lt.2 hl)
  · exact absurd h ht
  · rw [hnone]
    refine ⟨fun h' => absurd (abs_nonneg y) (not_le.2 (by linarith)), fun _ => ?_⟩
    obtain ⟨i, hi, h0⟩ := odd_position (p := p) hd ho
    refine ⟨i, hi, ?_⟩
    rw [h0, sub_zero, sub_self]
    exact indifference_neg hvp.le hspa hspv h.le
  · rw [hnone]
    refine ⟨fun h' => absurd (abs_nonneg y) (not_le.2 (by linarith)), fun _ => ?_⟩
    obtain ⟨i, hi, h0⟩ := ((even_positions (p := p) he).2 0 (by omega)).1
    refine ⟨i, hi, ?_⟩
    rw [h0]
    have h7 := abs_sub_abs_le_abs_sub (y - loopPos (p / (s2.mode.d : K)) 0) y
    rw [sub_sub_cancel_left, abs_neg, abs_of_pos (loopPos_le hp (k := 0) (by omega)).1] at h7
    linarith
  · rw [(two_getD hne _).1, hhalf]
    exact half_width he hp (by omega) (by
      have := indifference_neg (l1 := l1) (l2 := l2) hvp.le hspa hspv h.le
      have := (loopPos_le (p := p) (D := s2.mode.d) hp (k := 0) (by omega)).1
      linarith) (fun j hj => by omega) y

end Generic

end Sidermit
