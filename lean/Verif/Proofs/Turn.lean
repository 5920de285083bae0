import Verif.Props.Ring
import Verif.Props.City
import Verif.Spec.RealMath

/-!
Lemmas for C82: turning a symmetric city by some zones.
-/

set_option linter.unusedSectionVars false

namespace Sidermit

/-- the id of a node after turning a city with `n` zones by `k` zones -/
def turnId (n k : Nat) (z : Int) : Int :=
  if z < 1 ∨ 2 * (n : Int) < z then z else if z + 2 * k ≤ 2 * (n : Int) then z + 2 * k else z + 2 * k - 2 * n

/-- the same for positions in the list of nodes -/
def turnIdx (n k j : Nat) : Nat := if j = 0 ∨ 2 * n < j then j else if j + 2 * k ≤ 2 * n then j + 2 * k else j + 2 * k - 2 * n

theorem turnId_back {n k : Nat} (hk : k ≤ n) (z : Int) : turnId n (n - k) (turnId n k z) = z := by
  unfold turnId
  split_ifs <;> omega

theorem turnId_inj {n k : Nat} (hk : k ≤ n) {a b : Int} (h : turnId n k a = turnId n k b) : a = b := by
  rw [← turnId_back hk a, h, turnId_back hk]

theorem turnId_onto {n k : Nat} (hk : k ≤ n) (b : Int) : ∃ a, turnId n k a = b := by
  refine ⟨turnId n (n - k) b, ?_⟩
  have := turnId_back (n := n) (k := n - k) (Nat.sub_le n k) b
  rwa [Nat.sub_sub_self hk] at this

theorem turnIdx_id {n k j : Nat} : ((turnIdx n k j : Nat) : Int) = turnId n k j := by
  unfold turnId turnIdx
  split_ifs <;> omega

theorem turnIdx_le {n k j : Nat} (hk : k ≤ n) (hj : j ≤ 2 * n) : turnIdx n k j ≤ 2 * n := by
  unfold turnIdx
  split_ifs <;> omega

/-- turning the plane by `a` degrees -/
noncomputable def turnPlane (a : ℝ) (p : ℝ × ℝ) : ℝ × ℝ :=
  (Real.cos (a * Real.pi / 180) * p.1 - Real.sin (a * Real.pi / 180) * p.2,
   Real.sin (a * Real.pi / 180) * p.1 + Real.cos (a * Real.pi / 180) * p.2)

theorem segment_turned (a : ℝ) (p q : ℝ × ℝ) : segment (turnPlane a p) (turnPlane a q) = segment p q := by
  have h := Real.sin_sq_add_cos_sq (a * Real.pi / 180)
  unfold segment turnPlane
  congr 1
  simp only
  generalize Real.cos (a * Real.pi / 180) = c at *
  generalize Real.sin (a * Real.pi / 180) = s at *
  have : c ^ 2 = 1 - s ^ 2 := by linarith
  ring_nf
  rw [this]
  ring

/-- the symmetric geometry -/
noncomputable def evenGeo (n : Nat) (l g : ℝ) : Geo ℝ := docGeo n l g none none none none none

theorem node_turned {n k j : Nat} (hk : k ≤ n) (hj : j ≤ 2 * n) (l g w : ℝ) :
    ((nodeAt (evenGeo n l g) w (turnIdx n k j)).x, (nodeAt (evenGeo n l g) w (turnIdx n k j)).y) =
      turnPlane (360 / n * k) ((nodeAt (evenGeo n l g) w j).x, (nodeAt (evenGeo n l g) w j).y) := by
  by_cases h0 : j = 0
  · subst h0
    simp [turnIdx, nodeAt, evenGeo, docGeo, turnPlane]
  · have hn : (n : ℝ) ≠ 0 := by
      have : n ≠ 0 := by omega
      exact_mod_cast this
    have hj0 : turnIdx n k j ≠ 0 := by unfold turnIdx; split_ifs <;> omega
    have hpar : turnIdx n k j % 2 = j % 2 := by unfold turnIdx; split_ifs <;> omega
    have hzone : (turnIdx n k j - 1) / 2 = (j - 1) / 2 + k ∨ (turnIdx n k j - 1) / 2 + n = (j - 1) / 2 + k := by
      unfold turnIdx; split_ifs <;> omega
    have hang : Real.cos ((evenGeo n l g).ang ((turnIdx n k j - 1) / 2) * Real.pi / 180) =
        Real.cos ((evenGeo n l g).ang ((j - 1) / 2) * Real.pi / 180 + 360 / n * k * Real.pi / 180) ∧
        Real.sin ((evenGeo n l g).ang ((turnIdx n k j - 1) / 2) * Real.pi / 180) =
        Real.sin ((evenGeo n l g).ang ((j - 1) / 2) * Real.pi / 180 + 360 / n * k * Real.pi / 180) := by
      simp only [evenGeo, docGeo]
      rcases hzone with h | h
      · rw [h]
        push_cast
        constructor <;> congr 1 <;> ring
      · have h' : (((turnIdx n k j - 1) / 2 : Nat) : ℝ) = ((j - 1) / 2 : Nat) + k - n := by
          have : (((turnIdx n k j - 1) / 2 + n : Nat) : ℝ) = ((j - 1) / 2 + k : Nat) := by rw [h]
          push_cast at this
          linarith
        rw [h']
        have e : 360 / (n : ℝ) * (((j - 1) / 2 : Nat) + k - n) * Real.pi / 180 =
            360 / (n : ℝ) * ((j - 1) / 2 : Nat) * Real.pi / 180 + 360 / n * k * Real.pi / 180 - 2 * Real.pi := by
          field_simp
          ring
        rw [e, Real.cos_sub_two_pi, Real.sin_sub_two_pi]
        exact ⟨rfl, rfl⟩
    obtain ⟨hc, hs⟩ := hang
    rw [Real.cos_add] at hc
    rw [Real.sin_add] at hs
    unfold nodeAt
    rw [if_neg h0, if_neg hj0]
    simp only
    rw [hpar]
    have hr : ∀ i i', (evenGeo n l g).rp i = (evenGeo n l g).rp i' ∧ (evenGeo n l g).rsc i = (evenGeo n l g).rsc i' :=
      fun i i' => ⟨rfl, rfl⟩
    rw [(hr ((turnIdx n k j - 1) / 2) ((j - 1) / 2)).1, (hr ((turnIdx n k j - 1) / 2) ((j - 1) / 2)).2]
    split_ifs
    all_goals
      unfold turnPlane
      simp only [PyMath.cosDeg, PyMath.sinDeg]
      rw [hc, hs]
      refine Prod.ext ?_ ?_ <;> simp only <;> ring

theorem nodeDistance_turned {n k i j : Nat} (hk : k ≤ n) (hi : i ≤ 2 * n) (hj : j ≤ 2 * n) (l g w : ℝ) :
    nodeDistance (nodeAt (evenGeo n l g) w (turnIdx n k i)) (nodeAt (evenGeo n l g) w (turnIdx n k j)) =
      nodeDistance (nodeAt (evenGeo n l g) w i) (nodeAt (evenGeo n l g) w j) := by
  change segment ((nodeAt (evenGeo n l g) w (turnIdx n k i)).x, (nodeAt (evenGeo n l g) w (turnIdx n k i)).y)
    ((nodeAt (evenGeo n l g) w (turnIdx n k j)).x, (nodeAt (evenGeo n l g) w (turnIdx n k j)).y) = _
  rw [node_turned hk hi, node_turned hk hj, segment_turned]
  rfl

/-! ### the mirrored city -/

/-- the id of a node after mirroring a city with `n` zones at the axis through its first zone -/
def mirrorId (n : Nat) (z : Int) : Int :=
  if z < 3 ∨ 2 * (n : Int) < z then z else if z % 2 = 1 then 2 * n + 2 - z else 2 * n + 4 - z

/-- the same for positions in the list of nodes -/
def mirrorIdx (n j : Nat) : Nat := if j < 3 ∨ 2 * n < j then j else if j % 2 = 1 then 2 * n + 2 - j else 2 * n + 4 - j

theorem mirrorId_back {n : Nat} (z : Int) : mirrorId n (mirrorId n z) = z := by
  unfold mirrorId
  split_ifs <;> omega

theorem mirrorIdx_back {n : Nat} (j : Nat) : mirrorIdx n (mirrorIdx n j) = j := by
  unfold mirrorIdx
  split_ifs <;> omega

theorem mirrorIdx_id {n j : Nat} : ((mirrorIdx n j : Nat) : Int) = mirrorId n j := by
  unfold mirrorId mirrorIdx
  split_ifs <;> omega

theorem mirrorIdx_le {n j : Nat} (hj : j ≤ 2 * n) : mirrorIdx n j ≤ 2 * n := by
  unfold mirrorIdx
  split_ifs <;> omega

theorem turnIdx_back {n k j : Nat} (hk : k ≤ n) : turnIdx n k (turnIdx n (n - k) j) = j := by
  unfold turnIdx
  split_ifs <;> omega

theorem node_mirrored {n j : Nat} (hj : j ≤ 2 * n) (l g w : ℝ) :
    (nodeAt (evenGeo n l g) w (mirrorIdx n j)).x = (nodeAt (evenGeo n l g) w j).x ∧
    (nodeAt (evenGeo n l g) w (mirrorIdx n j)).y = - (nodeAt (evenGeo n l g) w j).y := by
  by_cases h0 : j = 0
  · subst h0
    simp [mirrorIdx, nodeAt, evenGeo, docGeo]
  · have hn : (n : ℝ) ≠ 0 := by
      have : n ≠ 0 := by omega
      exact_mod_cast this
    have hj0 : mirrorIdx n j ≠ 0 := by unfold mirrorIdx; split_ifs <;> omega
    have hpar : mirrorIdx n j % 2 = j % 2 := by unfold mirrorIdx; split_ifs <;> omega
    have hzone : ((mirrorIdx n j - 1) / 2 = 0 ∧ (j - 1) / 2 = 0) ∨ (mirrorIdx n j - 1) / 2 + (j - 1) / 2 = n := by
      unfold mirrorIdx; split_ifs <;> omega
    have hang : Real.cos ((evenGeo n l g).ang ((mirrorIdx n j - 1) / 2) * Real.pi / 180) =
        Real.cos ((evenGeo n l g).ang ((j - 1) / 2) * Real.pi / 180) ∧
        Real.sin ((evenGeo n l g).ang ((mirrorIdx n j - 1) / 2) * Real.pi / 180) =
        - Real.sin ((evenGeo n l g).ang ((j - 1) / 2) * Real.pi / 180) := by
      simp only [evenGeo, docGeo]
      rcases hzone with ⟨h1, h2⟩ | h
      · rw [h1, h2]
        simp
      · have h' : (((mirrorIdx n j - 1) / 2 : Nat) : ℝ) = n - ((j - 1) / 2 : Nat) := by
          have : (((mirrorIdx n j - 1) / 2 + (j - 1) / 2 : Nat) : ℝ) = (n : Nat) := by rw [h]
          push_cast at this ⊢
          linarith
        rw [h']
        have e : 360 / (n : ℝ) * (n - ((j - 1) / 2 : Nat)) * Real.pi / 180 =
            2 * Real.pi - 360 / (n : ℝ) * ((j - 1) / 2 : Nat) * Real.pi / 180 := by
          field_simp
          ring
        rw [e, Real.cos_two_pi_sub, Real.sin_two_pi_sub]
        exact ⟨rfl, rfl⟩
    obtain ⟨hc, hs⟩ := hang
    unfold nodeAt
    rw [if_neg h0, if_neg hj0]
    simp only
    rw [hpar]
    have hr : ∀ i i', (evenGeo n l g).rp i = (evenGeo n l g).rp i' ∧ (evenGeo n l g).rsc i = (evenGeo n l g).rsc i' :=
      fun i i' => ⟨rfl, rfl⟩
    rw [(hr ((mirrorIdx n j - 1) / 2) ((j - 1) / 2)).1, (hr ((mirrorIdx n j - 1) / 2) ((j - 1) / 2)).2]
    split_ifs
    all_goals
      simp only [PyMath.cosDeg, PyMath.sinDeg]
      rw [hc, hs]
      exact ⟨rfl, by ring⟩

theorem nodeDistance_mirrored {n i j : Nat} (hi : i ≤ 2 * n) (hj : j ≤ 2 * n) (l g w : ℝ) :
    nodeDistance (nodeAt (evenGeo n l g) w (mirrorIdx n i)) (nodeAt (evenGeo n l g) w (mirrorIdx n j)) =
      nodeDistance (nodeAt (evenGeo n l g) w i) (nodeAt (evenGeo n l g) w j) := by
  unfold nodeDistance
  rw [(node_mirrored hi l g w).1, (node_mirrored hi l g w).2, (node_mirrored hj l g w).1, (node_mirrored hj l g w).2]
  congr 1
  ring

end Sidermit
