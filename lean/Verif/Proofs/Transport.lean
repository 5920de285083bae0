import Verif.Spec.Hyperpath
import Mathlib.Algebra.Order.Field.Basic
import Mathlib.Algebra.Order.BigOperators.Group.List
import Mathlib.Tactic.Linarith
import Mathlib.Tactic.Ring
import Mathlib.Tactic.Choose

/-!
Strategies carried over to another graph that is nowhere worse: the expected generalised time does not grow.
-/

set_option linter.unusedSectionVars false

namespace Sidermit

variable {K : Type} [Field K] [LinearOrder K] [IsStrictOrderedRing K]

/-- the graph `edges'` is nowhere worse than `edges`, when its nodes are named by `φ` -/
structure NoWorse (edges edges' : List (EEdge K)) (pas pas' : Passenger K) (o d o' d' : Option (CityNode K))
    (φ : ENode K → ENode K) (σ : StopNode K → StopNode K) : Prop where
  dest : ∀ c, d = some c → ∃ c', d' = some c' ∧ φ (.city c) = .city c'
  stop : ∀ s, φ (.stop s) = .stop (σ s)
  wait : ∀ e ∈ edges, e.type = .boarding → ∀ s, e.i = .stop s →
    0 < waitCost pas' (σ s) ∧ waitCost pas' (σ s) ≤ waitCost pas s
  go : ∀ e ∈ edges, e.type ≠ .boarding → some e.i ≠ o.map .city → some e.j ≠ o.map .city →
    ∃ e' ∈ edges', e'.type ≠ .boarding ∧ e'.i = φ e.i ∧ e'.j = φ e.j ∧ some e'.i ≠ o'.map .city ∧ some e'.j ≠ o'.map .city ∧
      legTime pas' d' e' ≤ legTime pas d e
  board : ∀ e ∈ edges, e.type = .boarding →
    ∃ e' ∈ edges', e'.type = .boarding ∧ e'.i = φ e.i ∧ e'.j = φ e.j ∧ lineFreq e ≤ lineFreq e' ∧
      legTime pas' d' e' ≤ legTime pas d e
  inj : ∀ e₁ ∈ edges, e₁.type = .boarding → ∀ e₂ ∈ edges, e₂.type = .boarding → e₁.i = e₂.i → φ e₁.j = φ e₂.j → e₁ = e₂

/-- the sum over the terms that are not negative is not smaller -/
theorem sum_le_sum_filter {α : Type} (l : List α) (v : α → K) :
    (l.map v).sum ≤ ((l.filter fun a => decide (0 ≤ v a)).map v).sum := by
  induction l with
  | nil => simp
  | cons a t ih =>
    rw [List.map_cons, List.sum_cons, List.filter_cons]
    split_ifs with h
    · rw [List.map_cons, List.sum_cons]; linarith
    · have : v a < 0 := by simpa using h
      linarith

/-- waiting for a set of lines that are more frequent and lead on faster: some of them are not worse -/
theorem wait_no_worse {α : Type} (l : List α) (w w' : K) (f f' t t' : α → K) (hw' : 0 < w') (hw : w' ≤ w)
    (hf : ∀ a ∈ l, 0 < f a) (hff : ∀ a ∈ l, f a ≤ f' a) (ht : ∀ a ∈ l, t' a ≤ t a) (V : K)
    (hV : V * (l.map f).sum = w + (l.map fun a => f a * t a).sum) :
    let T := l.filter fun a => decide (t' a ≤ V)
    T ≠ [] ∧ (w' + (T.map fun a => f' a * t' a).sum) / (T.map f').sum ≤ V := by
  intro T
  have key : w' ≤ (T.map fun a => f' a * (V - t' a)).sum := by
    have h1 : w = (l.map fun a => f a * (V - t a)).sum := by
      have : (l.map fun a => f a * (V - t a)).sum = V * (l.map f).sum - (l.map fun a => f a * t a).sum := by
        clear hV hf hff ht T
        induction l with
        | nil => simp
        | cons a m ih => simp only [List.map_cons, List.sum_cons, ih]; ring
      rw [this, hV]; ring
    have h2 : (l.map fun a => f a * (V - t a)).sum ≤ (l.map fun a => f a * (V - t' a)).sum := by
      refine List.sum_le_sum fun a ha => ?_
      exact mul_le_mul_of_nonneg_left (by linarith [ht a ha]) (hf a ha).le
    have h3 := sum_le_sum_filter l (fun a => f a * (V - t' a))
    have h4 : (l.filter fun a => decide (0 ≤ f a * (V - t' a))) = T := by
      refine List.filter_congr fun a ha => ?_
      have := hf a ha
      rw [decide_eq_decide, mul_nonneg_iff_of_pos_left this, sub_nonneg]
    rw [h4] at h3
    have h5 : (T.map fun a => f a * (V - t' a)).sum ≤ (T.map fun a => f' a * (V - t' a)).sum := by
      refine List.sum_le_sum fun a ha => ?_
      obtain ⟨hal, hat⟩ := List.mem_filter.1 ha
      exact mul_le_mul_of_nonneg_right (hff a hal) (by have := of_decide_eq_true hat; linarith)
    linarith
  have hne : T ≠ [] := by
    intro h
    rw [h] at key
    simp at key
    linarith
  refine ⟨hne, ?_⟩
  have hpos : 0 < (T.map f').sum := by
    refine List.sum_pos _ ?_ (by simpa using hne)
    intro y hy
    obtain ⟨a, ha, rfl⟩ := List.mem_map.1 hy
    have hal := (List.mem_filter.1 ha).1
    exact lt_of_lt_of_le (hf a hal) (hff a hal)
  rw [div_le_iff₀ hpos]
  have : (T.map fun a => f' a * (V - t' a)).sum = V * (T.map f').sum - (T.map fun a => f' a * t' a).sum := by
    generalize T = T'
    induction T' with
    | nil => simp
    | cons a m ih => simp only [List.map_cons, List.sum_cons, ih]; ring
  linarith

/-- a strategy becomes one that is not slower -/
theorem NoWorse.strategy {edges edges' : List (EEdge K)} {pas pas' : Passenger K} {o d o' d' : Option (CityNode K)}
    {φ : ENode K → ENode K} {σ : StopNode K → StopNode K} (h : NoWorse edges edges' pas pas' o d o' d' φ σ)
    {n : ENode K} {c : K} (hs : Strategy edges pas o d n c) : ∃ c' ≤ c, Strategy edges' pas' o' d' (φ n) c' := by
  induction hs with
  | arrive c hd =>
    obtain ⟨c', h1, h2⟩ := h.dest c hd
    exact ⟨0, le_refl _, by rw [h2]; exact .arrive c' h1⟩
  | go e he hb hi hj c _ ih =>
    obtain ⟨c', hc, hs'⟩ := ih
    obtain ⟨e', he', hb', h1, h2, h3, h4, h5⟩ := h.go e he hb hi hj
    rw [← h2] at hs'
    refine ⟨legTime pas' d' e' + c', add_le_add h5 hc, ?_⟩
    rw [← h1]
    exact .go e' he' hb' h3 h4 c' hs'
  | wait s l hne hnd hl _ ih =>
    classical
    have : Nonempty (EEdge K) := by
      obtain ⟨p, _⟩ := List.exists_mem_of_ne_nil _ hne
      exact ⟨p.1⟩
    choose! cost hcost hstr using ih
    have hboard : ∀ p ∈ l, ∃ e' ∈ edges', e'.type = .boarding ∧ e'.i = φ p.1.i ∧ e'.j = φ p.1.j ∧
        lineFreq p.1 ≤ lineFreq e' ∧ legTime pas' d' e' ≤ legTime pas d p.1 :=
      fun p hp => h.board p.1 (hl p hp).1 (hl p hp).2.1
    choose! e' hin hb' hi' hj' hfr hleg using hboard
    obtain ⟨hw', hw⟩ : 0 < waitCost pas' (σ s) ∧ waitCost pas' (σ s) ≤ waitCost pas s := by
      obtain ⟨p, hp⟩ := List.exists_mem_of_ne_nil _ hne
      exact h.wait p.1 (hl p hp).1 (hl p hp).2.1 s (hl p hp).2.2.1
    have hpos : 0 < (l.map fun p => lineFreq p.1).sum := by
      refine List.sum_pos _ ?_ (by simpa using hne)
      intro y hy
      obtain ⟨a, ha, rfl⟩ := List.mem_map.1 hy
      exact (hl a ha).2.2.2
    obtain ⟨hT, hle⟩ := wait_no_worse l (waitCost pas s) (waitCost pas' (σ s)) (fun p => lineFreq p.1)
      (fun p => lineFreq (e' p)) (fun p => legTime pas d p.1 + p.2) (fun p => legTime pas' d' (e' p) + cost p) hw' hw
      (fun p hp => (hl p hp).2.2.2) hfr (fun p hp => add_le_add (hleg p hp) (hcost p hp)) _
      (div_mul_cancel₀ _ hpos.ne')
    set V := (waitCost pas s + (l.map fun p => lineFreq p.1 * (legTime pas d p.1 + p.2)).sum) / (l.map fun p => lineFreq p.1).sum
    set T := l.filter fun p => decide (legTime pas' d' (e' p) + cost p ≤ V)
    have hsub : ∀ p ∈ T, p ∈ l := fun p hp => (List.mem_filter.1 hp).1
    refine ⟨_, hle, ?_⟩
    rw [h.stop]
    have key := Strategy.wait (edges := edges') (pas := pas') (origin := o') (dest := d') (σ s)
      (T.map fun p => (e' p, cost p)) (by simpa using hT) ?_ ?_ ?_
    · rw [List.map_map, List.map_map] at key
      exact key
    · rw [List.map_map]
      have hnd' : (T.map Prod.fst).Nodup := (List.filter_sublist.map _).nodup hnd
      rw [List.Nodup, List.pairwise_map] at hnd' ⊢
      refine hnd'.imp_of_mem ?_
      intro a b ha hb hab heq
      simp only [Function.comp_apply] at heq
      refine hab (h.inj _ (hl a (hsub a ha)).1 (hl a (hsub a ha)).2.1 _ (hl b (hsub b hb)).1 (hl b (hsub b hb)).2.1 ?_ ?_)
      · rw [(hl a (hsub a ha)).2.2.1, (hl b (hsub b hb)).2.2.1]
      · rw [← hj' a (hsub a ha), ← hj' b (hsub b hb), heq]
    · intro q hq
      obtain ⟨p, hp, rfl⟩ := List.mem_map.1 hq
      have hpl := hsub p hp
      refine ⟨hin p hpl, hb' p hpl, ?_, lt_of_lt_of_le (hl p hpl).2.2.2 (hfr p hpl)⟩
      rw [hi' p hpl, (hl p hpl).2.2.1, h.stop]
    · intro q hq
      obtain ⟨p, hp, rfl⟩ := List.mem_map.1 hq
      have hpl := hsub p hp
      simp only
      rw [hj' p hpl]
      exact hstr p hpl

/-- the graph `edges'` has everything that `edges` has, when its nodes are named by `φ`, whatever the times -/
structure HasAll (edges edges' : List (EEdge K)) (o d o' d' : Option (CityNode K)) (φ : ENode K → ENode K)
    (σ : StopNode K → StopNode K) : Prop where
  dest : ∀ c, d = some c → ∃ c', d' = some c' ∧ φ (.city c) = .city c'
  stop : ∀ s, φ (.stop s) = .stop (σ s)
  go : ∀ e ∈ edges, e.type ≠ .boarding → some e.i ≠ o.map .city → some e.j ≠ o.map .city →
    ∃ e' ∈ edges', e'.type ≠ .boarding ∧ e'.i = φ e.i ∧ e'.j = φ e.j ∧ some e'.i ≠ o'.map .city ∧ some e'.j ≠ o'.map .city
  board : ∀ e ∈ edges, e.type = .boarding → 0 < lineFreq e →
    ∃ e' ∈ edges', e'.type = .boarding ∧ e'.i = φ e.i ∧ e'.j = φ e.j ∧ 0 < lineFreq e'

/-- where there was a strategy there still is one -/
theorem HasAll.strategy {edges edges' : List (EEdge K)} {pas pas' : Passenger K} {o d o' d' : Option (CityNode K)}
    {φ : ENode K → ENode K} {σ : StopNode K → StopNode K} (h : HasAll edges edges' o d o' d' φ σ)
    {n : ENode K} {c : K} (hs : Strategy edges pas o d n c) : ∃ c', Strategy edges' pas' o' d' (φ n) c' := by
  induction hs with
  | arrive c hd =>
    obtain ⟨c', h1, h2⟩ := h.dest c hd
    exact ⟨0, by rw [h2]; exact .arrive c' h1⟩
  | go e he hb hi hj c _ ih =>
    obtain ⟨c', hs'⟩ := ih
    obtain ⟨e', he', hb', h1, h2, h3, h4⟩ := h.go e he hb hi hj
    rw [← h2] at hs'
    rw [← h1]
    exact ⟨_, .go e' he' hb' h3 h4 c' hs'⟩
  | wait s l hne _ hl _ ih =>
    obtain ⟨p, hp⟩ := List.exists_mem_of_ne_nil _ hne
    obtain ⟨h1, h2, h3, h4⟩ := hl p hp
    obtain ⟨c', hs'⟩ := ih p hp
    obtain ⟨e', he', hb', hi', hj', hf⟩ := h.board p.1 h1 h2 h4
    rw [h.stop]
    rw [h3, h.stop] at hi'
    refine ⟨_, .wait (σ s) [(e', c')] (by simp) (by simp) ?_ ?_⟩
    · simpa using ⟨he', hb', hi', hf⟩
    · simpa [hj'] using hs'

end Sidermit
