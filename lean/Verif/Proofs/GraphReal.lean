import Verif.Spec.RealMath
import Verif.Proofs.GraphStreet
import Verif.Proofs.Dict
import Mathlib.Tactic.FieldSimp

/-! Distances and polar coordinates. -/

set_option linter.unusedSectionVars false

namespace Sidermit

section Dist
variable {K : Type} [Field K] [LinearOrder K] [PyMath K]

/-- what the distance loop leaves in the table -/
theorem edgesDistance_fold (g : Graph K) (es : List Edge) (d : Dict Int (Dict Int K)) (a b : Int)
    (hd : DistinctIds g) (v : K) :
    lookup2 (es.foldl (distStep g.nodes) d) a b = some v ↔
      (∃ e ∈ es, ∃ x y, g.nodes[e.node1]? = some x ∧ g.nodes[e.node2]? = some y ∧ x.id = a ∧ y.id = b ∧
        v = nodeDistance x y) ∨
      ((¬ ∃ e ∈ es, ∃ x y, g.nodes[e.node1]? = some x ∧ g.nodes[e.node2]? = some y ∧ x.id = a ∧ y.id = b) ∧
        lookup2 d a b = some v) := by
  induction es generalizing d with
  | nil => simp
  | cons e t ih =>
    rw [List.foldl_cons, ih]
    cases h1 : g.nodes[e.node1]? with
    | none => simp [distStep, h1]
    | some x =>
      cases h2 : g.nodes[e.node2]? with
      | none => simp [distStep, h1, h2]
      | some y =>
        simp only [distStep, lookup2_setCell, List.mem_cons, exists_eq_or_imp, h1, h2, Option.some.injEq]
        by_cases hab : a = x.id ∧ b = y.id
        · obtain ⟨rfl, rfl⟩ := hab
          simp only [and_self, if_true]
          constructor
          · rintro (h | ⟨h, h'⟩)
            · exact Or.inl (Or.inr h)
            · exact Or.inl (Or.inl ⟨x, y, rfl, rfl, rfl, rfl, by simpa using h'.symm⟩)
          · rintro (h | h)
            · rcases h with ⟨_, _, rfl, rfl, _, _, rfl⟩ | h
              · by_cases hex : ∃ e ∈ t, ∃ x' y', g.nodes[e.node1]? = some x' ∧ g.nodes[e.node2]? = some y' ∧
                    x'.id = x.id ∧ y'.id = y.id
                · obtain ⟨e', he', x', y', hx', hy', hix, hiy⟩ := hex
                  refine Or.inl ⟨e', he', x', y', hx', hy', hix, hiy, ?_⟩
                  have i1 := distinct_idx hd hx' h1 hix
                  have i2 := distinct_idx hd hy' h2 hiy
                  rw [i1, h1] at hx'; rw [i2, h2] at hy'
                  cases hx'; cases hy'; rfl
                · exact Or.inr ⟨hex, rfl⟩
              · exact Or.inl h
            · exact absurd (Or.inl ⟨x, y, rfl, rfl, rfl, rfl⟩) h.1
        · rw [if_neg hab]
          have hno : ¬ ∃ x' y', x = x' ∧ y = y' ∧ x'.id = a ∧ y'.id = b := by
            rintro ⟨_, _, rfl, rfl, h3, h4⟩
            exact hab ⟨h3.symm, h4.symm⟩
          have hno' : ¬ ∃ x' y', x = x' ∧ y = y' ∧ x'.id = a ∧ y'.id = b ∧ v = nodeDistance x' y' := by
            rintro ⟨_, _, rfl, rfl, h3, h4, _⟩
            exact hab ⟨h3.symm, h4.symm⟩
          simp only [hno, hno', false_or]

theorem edgesDistance_iff {g : Graph K} {n : Nat} (hs : CityShape g n) (hd : DistinctIds g) {a b : Node K}
    (ha : a ∈ g.nodes) (hb : b ∈ g.nodes) (v : K) :
    lookup2 g.edgesDistance a.id b.id = some v ↔ Street n a b ∧ v = nodeDistance a b := by
  obtain ⟨i, hi, rfl⟩ := List.mem_iff_getElem.1 ha
  obtain ⟨j, hj, rfl⟩ := List.mem_iff_getElem.1 hb
  have h1 : g.nodes[i]? = some g.nodes[i] := List.getElem?_eq_getElem hi
  have h2 : g.nodes[j]? = some g.nodes[j] := List.getElem?_eq_getElem hj
  have hi' := hi
  have hj' := hj
  rw [hs.len] at hi' hj'
  rw [street_iff_idx hi' hj' _ _ (hs.kind i _ h1) (hs.zone i _ h1) (hs.kind j _ h2) (hs.zone j _ h2),
    ← mem_cityEdges_iff, ← hs.edges]
  unfold Graph.edgesDistance
  rw [edgesDistance_fold g _ _ _ _ hd]
  constructor
  · rintro (⟨e, he, x, y, hx, hy, hxi, hyi, rfl⟩ | ⟨_, h⟩)
    · have e1 := distinct_idx hd hx h1 hxi
      have e2 := distinct_idx hd hy h2 hyi
      rw [e1, h1] at hx
      rw [e2, h2] at hy
      cases hx; cases hy
      exact ⟨⟨e, he, e1, e2⟩, rfl⟩
    · simp [lookup2] at h
  · rintro ⟨⟨e, he, rfl, rfl⟩, rfl⟩
    exact Or.inl ⟨e, he, _, _, h1, h2, rfl, rfl, rfl⟩

theorem edgesDistance_nodes {g : Graph K} (hd : DistinctIds g) {a b : Int} {v : K}
    (h : lookup2 g.edgesDistance a b = some v) : (∃ x ∈ g.nodes, x.id = a) ∧ (∃ y ∈ g.nodes, y.id = b) := by
  unfold Graph.edgesDistance at h
  rw [edgesDistance_fold g _ _ _ _ hd] at h
  rcases h with ⟨e, he, x, y, hx, hy, hxi, hyi, _⟩ | ⟨_, h⟩
  · exact ⟨⟨x, List.mem_of_getElem? hx, hxi⟩, ⟨y, List.mem_of_getElem? hy, hyi⟩⟩
  · simp [lookup2] at h

end Dist

section Polar
open Real

theorem getAngle_real (x y : ℝ) (h : ¬ (x = 0 ∧ y = 0)) :
    getAngle x y = .ok (if y < 0 then 360 - arccos (x / √(x * x + y * y)) * 180 / π
      else arccos (x / √(x * x + y * y)) * 180 / π) := by
  have hpos : 0 < x * x + y * y := by
    by_contra hc
    have h1 := mul_self_nonneg x
    have h2 := mul_self_nonneg y
    exact h ⟨mul_self_eq_zero.1 (by linarith), mul_self_eq_zero.1 (by linarith)⟩
  have hs : √(x * x + y * y) ≠ 0 := (Real.sqrt_pos.2 hpos).ne'
  unfold getAngle
  simp only [h, if_false, one_mul, zero_mul, add_zero, mul_zero, PyMath.sqrt, PyMath.acosDeg, Real.sqrt_one, pyDiv,
    hs, py_ok_bind]
  split
  · split
    · rfl
    · simp only [py_pure]; congr 1; ring
  · rfl

theorem getAngle_range (x y : ℝ) : ∃ a, getAngle x y = .ok a ∧ 0 ≤ a ∧ a < 360 := by
  by_cases h : x = 0 ∧ y = 0
  · refine ⟨0, ?_, le_refl 0, by norm_num⟩
    unfold getAngle; simp [h]
  · rw [getAngle_real x y h]
    refine ⟨_, rfl, ?_⟩
    have hpi := Real.pi_pos
    have h0 := Real.arccos_nonneg (x / √(x * x + y * y))
    have h1 := Real.arccos_le_pi (x / √(x * x + y * y))
    have hle : arccos (x / √(x * x + y * y)) * 180 / π ≤ 180 := by
      rw [div_le_iff₀ hpi]; nlinarith
    have hge : 0 ≤ arccos (x / √(x * x + y * y)) * 180 / π := by positivity
    split
    · rename_i hy
      refine ⟨by linarith, ?_⟩
      have : 0 < arccos (x / √(x * x + y * y)) := by
        rw [Real.arccos_pos]
        have hpos : 0 < x * x + y * y := by nlinarith [mul_self_nonneg x]
        rw [div_lt_one (Real.sqrt_pos.2 hpos)]
        apply Real.lt_sqrt_of_sq_lt
        nlinarith
      have : 0 < arccos (x / √(x * x + y * y)) * 180 / π := by positivity
      linarith
    · exact ⟨hge, by linarith⟩

theorem getAngle_getXY (r θ : ℝ) (hr : 0 < r) (h0 : 0 ≤ θ) (h1 : θ < 360) :
    getAngle (getXY r θ).1 (getXY r θ).2 = .ok θ := by
  have hpi := Real.pi_pos
  simp only [getXY, PyMath.cosDeg, PyMath.sinDeg]
  set t := θ * π / 180 with ht
  have ht0 : 0 ≤ t := by positivity
  have ht2 : t < 2 * π := by rw [ht, div_lt_iff₀ (by norm_num)]; nlinarith
  have hθ : θ = t * 180 / π := by rw [ht]; field_simp
  have hne : ¬ (r * cos t = 0 ∧ r * sin t = 0) := by
    rintro ⟨h, h'⟩
    have hc : cos t = 0 := by rcases mul_eq_zero.1 h with h | h; exact absurd h hr.ne'; exact h
    have hs : sin t = 0 := by rcases mul_eq_zero.1 h' with h | h; exact absurd h hr.ne'; exact h
    have := Real.sin_sq_add_cos_sq t
    rw [hc, hs] at this; norm_num at this
  rw [getAngle_real _ _ hne]
  have hsum : r * cos t * (r * cos t) + r * sin t * (r * sin t) = r ^ 2 := by
    have := Real.sin_sq_add_cos_sq t
    calc _ = r ^ 2 * (sin t ^ 2 + cos t ^ 2) := by ring
      _ = r ^ 2 := by rw [this, mul_one]
  rw [hsum, Real.sqrt_sq hr.le, mul_div_cancel_left₀ _ hr.ne']
  by_cases htp : t ≤ π
  · have : ¬ r * sin t < 0 := not_lt.2 (mul_nonneg hr.le (Real.sin_nonneg_of_nonneg_of_le_pi ht0 htp))
    rw [if_neg this, Real.arccos_cos ht0 htp, ← hθ]
  · push Not at htp
    have hs : sin t < 0 := by
      have : sin t = -sin (t - π) := by rw [Real.sin_sub_pi]; ring
      rw [this]
      have := Real.sin_pos_of_pos_of_lt_pi (by linarith : 0 < t - π) (by linarith)
      linarith
    rw [if_pos (mul_neg_of_pos_of_neg hr hs)]
    have hc : cos t = cos (2 * π - t) := (Real.cos_two_pi_sub t).symm
    rw [hc, Real.arccos_cos (by linarith) (by linarith)]
    congr 1
    rw [hθ]; field_simp; ring

theorem getXY_getAngle (x y a : ℝ) (h : getAngle x y = .ok a) :
    getXY (√(x ^ 2 + y ^ 2)) a = (x, y) := by
  have hpi := Real.pi_pos
  by_cases h0 : x = 0 ∧ y = 0
  · obtain ⟨rfl, rfl⟩ := h0
    simp [getXY]
  rw [getAngle_real x y h0] at h
  have hpos : 0 < x ^ 2 + y ^ 2 := by
    by_contra hc
    exact h0 ⟨by nlinarith [sq_nonneg x, sq_nonneg y, pow_eq_zero_iff (M₀ := ℝ) (a := x) (n := 2) (by norm_num)],
      by nlinarith [sq_nonneg x, sq_nonneg y]⟩
  have heq : x * x + y * y = x ^ 2 + y ^ 2 := by ring
  rw [heq] at h
  set r := √(x ^ 2 + y ^ 2) with hr
  have hrp : 0 < r := Real.sqrt_pos.2 hpos
  have hr2 : r ^ 2 = x ^ 2 + y ^ 2 := Real.sq_sqrt hpos.le
  have hx1 : x / r ≤ 1 := by
    rw [div_le_one hrp]; nlinarith [sq_nonneg y]
  have hx2 : -1 ≤ x / r := by
    rw [le_div_iff₀ hrp]; nlinarith [sq_nonneg y]
  have hsin : sin (arccos (x / r)) = |y| / r := by
    rw [Real.sin_arccos]
    have : 1 - (x / r) ^ 2 = (|y| / r) ^ 2 := by
      rw [div_pow, div_pow, sq_abs]
      field_simp
      linarith
    rw [this, Real.sqrt_sq (by positivity)]
  have hcos := Real.cos_arccos hx2 hx1
  injection h with h
  subst h
  simp only [getXY, PyMath.cosDeg, PyMath.sinDeg]
  split
  · rename_i hy
    have e : (360 - arccos (x / r) * 180 / π) * π / 180 = 2 * π - arccos (x / r) := by field_simp; ring
    rw [e, Real.cos_two_pi_sub, Real.sin_two_pi_sub, hcos, hsin, abs_of_neg hy]
    ext <;> simp <;> field_simp
  · rename_i hy
    have e : arccos (x / r) * 180 / π * π / 180 = arccos (x / r) := by field_simp
    rw [e, hcos, hsin, abs_of_nonneg (not_lt.1 hy)]
    ext <;> simp <;> field_simp

end Polar

end Sidermit
