import Verif.Proofs.Via

/-!
How short and how long a trip can be.
-/

set_option linter.unusedSectionVars false

namespace Sidermit

variable {K : Type} [Field K] [LinearOrder K] [IsStrictOrderedRing K]

/-- where a node is -/
def place : ENode K → K × K
  | .city c => (c.node.x, c.node.y)
  | .stop s => (s.city.node.x, s.city.node.y)
  | .route n => (n.stop.city.node.x, n.stop.city.node.y)

/-- what a plane with straight distances needs -/
structure Plane (K : Type) [Field K] [LinearOrder K] [PyMath K] : Prop where
  self : ∀ a : K × K, segment a a = 0
  nonneg : ∀ a b : K × K, 0 ≤ segment a b
  tri : ∀ a b c : K × K, segment a c ≤ segment a b + segment b c

section Leg

variable [PyMath K]

/-- the length of a leg is not smaller than the straight distance -/
theorem legLoop_ge (hp : Plane K) (nodes : List (Node K)) {a b : Int} (hab : a ≠ b) (final : K × K) : ∀ (seq : List Int),
    b ∈ seq → ∀ (count : Bool) (prev : K × K) (dist : K), dist + segment prev final ≤ legLoop nodes a b final seq count prev dist := by
  intro seq
  induction seq with
  | nil => intro hb; simp at hb
  | cons node rest ih =>
    intro hb count prev dist
    rw [legLoop]
    by_cases h1 : node = a
    · rw [if_pos h1]
      refine ih ?_ _ _ _
      rcases List.mem_cons.1 hb with h | h
      · exact absurd (h.trans h1).symm hab
      · exact h
    rw [if_neg h1]
    by_cases h2 : node = b
    · rw [if_pos h2]
    rw [if_neg h2]
    have hr : b ∈ rest := by
      rcases List.mem_cons.1 hb with h | h
      · exact absurd h.symm h2
      · exact h
    cases count with
    | false => exact ih hr _ _ _
    | true =>
      simp only [if_true]
      cases nodes.find? (fun n => decide (node = n.id)) with
      | none => exact ih hr _ _ _
      | some n =>
        have h3 := ih hr true (n.x, n.y) (dist + segment prev (n.x, n.y))
        have h4 := hp.tri prev (n.x, n.y) final
        simp only
        linarith

end Leg

variable [PyMath K] {nodes : ENodes K} {edges : List (EEdge K)} {pas : Passenger K} {i j k : CityNode K}

/-- no edge goes further than a vehicle of speed `V` in its time -/
def WithinSpeed (edges : List (EEdge K)) (V : K) : Prop := ∀ e ∈ edges, segment (place e.i) (place e.j) ≤ V * e.t ∨ place e.i = place e.j

/-- waiting for lines that all take at least `V` -/
theorem wait_at_least {α : Type} (l : List α) (f t : α → K) (hpos : 0 < (l.map f).sum) (hf : ∀ a ∈ l, 0 < f a) (w V : K)
    (ht : ∀ a ∈ l, V ≤ t a) : w / (l.map f).sum + V ≤ (w + (l.map fun a => f a * t a).sum) / (l.map f).sum := by
  rw [div_add' _ _ _ hpos.ne']
  refine div_le_div_of_nonneg_right ?_ hpos.le
  rw [sum_times]
  have := List.sum_le_sum (l := l) (f := fun a => f a * V) (g := fun a => f a * t a)
    fun a ha => mul_le_mul_of_nonneg_left (ht a ha) (hf a ha).le
  linarith

/-- the walk from the stops of the mode of a node -/
def walkOut (pas : Passenger K) (x : ENode K) : K := ((nodeMode x).map fun m => m.tat / 60 * pas.pa / pas.pv).getD 0

theorem freqs_pos {l : List (EEdge K × K)} (hne : l ≠ []) (hl : ∀ p ∈ l, 0 < lineFreq p.1) :
    0 < (l.map fun p => lineFreq p.1).sum := by
  have := sumF_pos (suc := l.map Prod.fst) (fun b hb => by
    obtain ⟨p, hp, rfl⟩ := List.mem_map.1 hb
    exact hl p hp) (by simpa using hne)
  unfold sumF at this
  rwa [List.map_map] at this

/-- no strategy is faster than the straight line at the speed `V` and the walk from the stops of the mode -/
theorem straight_le_strategy (hp : Plane K) (hg : HInput.Good (⟨nodes, edges, pas, some i, some j⟩ : HInput K)) {τ : K}
    (hw : WalkEdges nodes edges τ) {V : K} (hV : 0 < V) (hs : WithinSpeed edges V) (hr : ∀ e ∈ edges, place e.i ≠ place e.j → e.type = .route)
    {x : ENode K} {c : K} (h : Strategy edges pas (some i) (some j) x c) :
    segment (place x) (place (.city j)) / V + walkOut pas x ≤ c := by
  induction h with
  | arrive d hd =>
    cases hd
    rw [hp.self]
    simp [walkOut, nodeMode]
  | go e he hb hi hj c hc ih =>
    have hl : 0 ≤ legTime pas (some j) e := legTime_nonneg hg he
    have hwalk : walkOut pas e.i ≤ walkOut pas e.j ∨ (∃ s, e = ⟨.stop s, .city s.city, s.mode.tat / 60, none, .access⟩) := by
      rcases hw.modes e he with h | ⟨c, h⟩ | ⟨s, h⟩
      · left; unfold walkOut; rw [h]
      · left
        obtain ⟨s, hs, _, h'⟩ := hw.out e he c h
        rw [h']
        have := hg.time _ (hw.enter s hs)
        simp only [walkOut, nodeMode, Option.map_none, Option.getD_none, Option.map_some, Option.getD_some]
        exact div_nonneg (mul_nonneg this hg.pa) hg.pv.le
      · exact Or.inr ⟨s, h⟩
    rcases hwalk with hwalk | ⟨s, rfl⟩
    · by_cases hpl : place e.i = place e.j
      · rw [hpl]
        linarith
      · have hty := hr e he hpl
        have hle : legTime pas (some j) e = e.t := by
          unfold legTime
          rw [hty]
        have h1 := (hs e he).resolve_right hpl
        have h2 := hp.tri (place e.i) (place e.j) (place (.city j))
        have h3 : segment (place e.i) (place (.city j)) / V ≤ e.t + segment (place e.j) (place (.city j)) / V := by
          rw [div_le_iff₀ hV, add_mul, div_mul_cancel₀ _ hV.ne']
          linarith
        rw [hle]
        linarith
    · have h1 : place (.stop s) = place (.city s.city) := rfl
      have h2 : walkOut pas (.stop s) = legTime pas (some j) ⟨.stop s, .city s.city, s.mode.tat / 60, none, .access⟩ := rfl
      have h3 : walkOut pas (.city s.city) = 0 := rfl
      simp only at ih ⊢
      rw [h1, h2]
      rw [h3] at ih
      linarith
  | wait s l hne hnd hl hs ih =>
    have hpos := freqs_pos hne fun p hp => (hl p hp).2.2.2
    have hwait : 0 ≤ waitCost pas s := by
      obtain ⟨p, hp⟩ := List.exists_mem_of_ne_nil _ hne
      obtain ⟨_, _, s', hs', hth⟩ := hg.board p.1 (hl p hp).1 (hl p hp).2.1
      rw [(hl p hp).2.2.1] at hs'
      cases hs'
      exact div_nonneg (mul_nonneg hth.le hg.pw.le) hg.pv.le
    refine le_trans ?_ (wait_at_least l (fun p => lineFreq p.1) (fun p => legTime pas (some j) p.1 + p.2) hpos
      (fun p hp => (hl p hp).2.2.2) (waitCost pas s) (segment (place (.stop s)) (place (.city j)) / V + walkOut pas (.stop s)) ?_)
    · linarith [div_nonneg hwait hpos.le]
    · intro p hpl
      have h0 : 0 ≤ legTime pas (some j) p.1 := legTime_nonneg hg (hl p hpl).1
      have h1 := ih p hpl
      have h2 : place p.1.i = place p.1.j := by
        by_contra hne
        have := hr p.1 (hl p hpl).1 hne
        rw [(hl p hpl).2.1] at this
        cases this
      have h3 : walkOut pas p.1.i = walkOut pas p.1.j := by
        rcases hw.modes p.1 (hl p hpl).1 with h | ⟨c, h⟩ | ⟨s', h⟩
        · unfold walkOut; rw [h]
        · rw [(hl p hpl).2.2.1] at h; cases h
        · have := (hl p hpl).2.1
          rw [h] at this; cases this
      rw [(hl p hpl).2.2.1] at h2 h3
      rw [h2, h3]
      linarith

end Sidermit
