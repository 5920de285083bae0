import Verif.Proofs.PajekText
import Verif.Proofs.GraphReal
import Verif.Spec.PajekReal

/-! Nodes of the cities built from parameters, and their export, over the real numbers. -/

set_option linter.unusedSectionVars false

namespace Sidermit

section Generic

variable {K : Type} [Field K] [LinearOrder K] [IsStrictOrderedRing K] [PyMath K]

theorem getD_eq_at {α : Type} {a : List α} {d : α} {i : Nat} (h : i < a.length) : a.getD i d = a[i] := by
  simp [List.getD, List.getElem?_eq_getElem h]

theorem isWord_append_showInt {s : Str} (hs : ∀ c ∈ s, isSpace c = false) (i : Int) : IsWord (s ++ showInt i) := by
  refine ⟨?_, ?_⟩
  · intro h
    exact showInt_ne_nil i (List.append_eq_nil_iff.1 h).2
  · intro c hc
    rcases List.mem_append.1 hc with hc | hc
    · exact hs c hc
    · exact showInt_not_space i c hc

theorem nodeAt_name_isWord (geo : Geo K) (w : K) (j : Nat) : IsWord (nodeAt geo w j).name := by
  rcases Nat.eq_zero_or_pos j with rfl | hj
  · show IsWord "CBD".toList
    exact ⟨by decide, by decide⟩
  · rcases Nat.even_or_odd' j with ⟨k, rfl | rfl⟩
    · obtain ⟨i, rfl⟩ : ∃ i, k = i + 1 := ⟨k - 1, by omega⟩
      rw [show 2 * (i + 1) = 2 * i + 2 by ring, nodeAt_subcenter]
      exact isWord_append_showInt (by decide) _
    · rw [nodeAt_periphery]
      exact isWord_append_showInt (by decide) _

/-- the geometry of accepted parameters is within the ranges of the nodes -/
theorem docGeo_range {n : Nat} {l g p : K} {etha : Option K} {ethaZone : Option Int} {angles gi hi : Option (List K)}
    (h : CityParamsOk (n : Int) l g p etha ethaZone angles gi hi) (i : Nat) (hin : i < n) :
    0 ≤ (docGeo n l g etha ethaZone angles gi hi).rsc i ∧ 0 ≤ (docGeo n l g etha ethaZone angles gi hi).rp i ∧
    0 ≤ (docGeo n l g etha ethaZone angles gi hi).ang i ∧ (docGeo n l g etha ethaZone angles gi hi).ang i ≤ 360 := by
  have hl := h.l_nonneg
  have hg := h.g_nonneg
  refine ⟨?_, ?_, ?_⟩
  · simp only [docGeo]
    cases hgi : gi with
    | none => exact hl
    | some a =>
      obtain ⟨h1, h2⟩ := h.gi_ok a hgi
      have hlt : i < a.length := by omega
      simp only [getD_eq_at hlt]
      exact mul_nonneg (h2 _ (List.getElem_mem hlt)) hl
  · simp only [docGeo]
    cases hhi : hi with
    | none => positivity
    | some a =>
      obtain ⟨h1, h2⟩ := h.hi_ok a hhi
      have hlt : i < a.length := by omega
      simp only [getD_eq_at hlt]
      exact mul_nonneg (h2 _ (List.getElem_mem hlt)) (by positivity)
  · simp only [docGeo]
    cases hang : angles with
    | none =>
      have hn0 : (0 : K) < n := by exact_mod_cast (show 0 < n by omega)
      have hin' : (i : K) ≤ n := by exact_mod_cast hin.le
      refine ⟨by positivity, ?_⟩
      simp only
      rw [div_mul_eq_mul_div, div_le_iff₀ hn0]
      nlinarith
    | some a =>
      obtain ⟨h1, h2⟩ := h.angles_ok a hang
      have hlt : i < a.length := by omega
      simp only [getD_eq_at hlt]
      exact h2 _ (List.getElem_mem hlt)

/-- every node of a city from parameters lies at its radius and angle, within the ranges of the nodes -/
theorem params_node {n : Int} {l g p : K} {etha : Option K} {ethaZone : Option Int} {angles gi hi : Option (List K)}
    {r : Graph K} (h : buildFromParameters n l g p etha ethaZone angles gi hi = .ok r) :
    ∀ nd ∈ r.nodes, (nd.x, nd.y) = getXY nd.radius nd.angle ∧ NodeOk nd ∧ nd.width = p ∧ IsWord nd.name := by
  have hok := (buildFromParameters_ok_iff).1 ⟨r, h⟩
  obtain ⟨m, rfl⟩ := Int.eq_ofNat_of_zero_le hok.n_nonneg
  rw [buildFromParameters_eq hok] at h
  cases h
  intro nd hnd
  obtain ⟨j, hj, rfl⟩ := List.mem_map.1 hnd
  rw [List.mem_range] at hj
  refine ⟨?_, ?_, nodeAt_width _ _ _, nodeAt_name_isWord _ _ _⟩
  · rcases Nat.eq_zero_or_pos j with rfl | hj0
    · rfl
    · rcases Nat.even_or_odd' j with ⟨k, rfl | rfl⟩
      · obtain ⟨i, rfl⟩ : ∃ i, k = i + 1 := ⟨k - 1, by omega⟩
        rw [show 2 * (i + 1) = 2 * i + 2 by ring, nodeAt_subcenter]; rfl
      · rw [nodeAt_periphery]; rfl
  · have hw : (0 : K) ≤ (nodeAt (docGeo m l g etha ethaZone angles gi hi) p j).width := by
      rw [nodeAt_width]; exact hok.p_nonneg
    rcases Nat.eq_zero_or_pos j with rfl | hj0
    · refine ⟨fun _ => by rw [nodeAt_zone]; rfl, ?_, ?_, hw⟩
      · show 0 ≤ (docGeo m l g etha ethaZone angles gi hi).rc
        rcases hok.etha_ok with ⟨rfl, rfl⟩ | ⟨e, z, rfl, rfl, h1, h2, h3, h4⟩
        · exact le_refl 0
        · exact mul_nonneg h1 (docGeo_range hok (z - 1).toNat (by omega)).1
      · show 0 ≤ (docGeo m l g etha ethaZone angles gi hi).ac ∧ (docGeo m l g etha ethaZone angles gi hi).ac ≤ 360
        rcases hok.etha_ok with ⟨rfl, rfl⟩ | ⟨e, z, rfl, rfl, h1, h2, h3, h4⟩
        · exact ⟨le_refl 0, by norm_num [docGeo]⟩
        · exact (docGeo_range hok (z - 1).toNat (by omega)).2.2
    · rcases Nat.even_or_odd' j with ⟨k, rfl | rfl⟩
      · obtain ⟨i, rfl⟩ : ∃ i, k = i + 1 := ⟨k - 1, by omega⟩
        rw [show 2 * (i + 1) = 2 * i + 2 by ring] at hw ⊢
        have hd := docGeo_range hok i (by omega)
        refine ⟨fun hk => ?_, ?_, ?_, hw⟩
        · rw [nodeAt_subcenter] at hk; cases hk
        · rw [nodeAt_subcenter]; exact hd.1
        · rw [nodeAt_subcenter]; exact hd.2.2
      · have hd := docGeo_range hok k (by omega)
        refine ⟨fun hk => ?_, ?_, ?_, hw⟩
        · rw [nodeAt_periphery] at hk; cases hk
        · rw [nodeAt_periphery]; exact hd.2.1
        · rw [nodeAt_periphery]; exact hd.2.2

theorem idsAcrossZones_of_distinct {ns : List (Node K)} (h : (ns.map Node.id).Nodup) : IdsAcrossZones ns := by
  unfold IdsAcrossZones
  rw [List.Nodup, List.pairwise_map] at h
  exact h.imp (fun {a b} hne (_ : a.zone ≠ b.zone) => hne)

end Generic

section Real

theorem sqrt_getXY (r a : ℝ) (hr : 0 ≤ r) : Real.sqrt ((getXY r a).1 ^ 2 + (getXY r a).2 ^ 2) = r := by
  have : (getXY r a).1 ^ 2 + (getXY r a).2 ^ 2 = r ^ 2 := by
    simp only [getXY, PyMath.cosDeg, PyMath.sinDeg]
    have := Real.cos_sq_add_sin_sq (a * Real.pi / 180)
    nlinarith
  rw [this, Real.sqrt_sq hr]

theorem getXY_360 (r : ℝ) : getXY r 360 = getXY r 0 := by
  simp only [getXY, PyMath.cosDeg, PyMath.sinDeg]
  rw [show (360 : ℝ) * Real.pi / 180 = 2 * Real.pi by ring]
  simp

theorem getAngle_origin : getAngle (0 : ℝ) 0 = .ok 0 := by unfold getAngle; simp

theorem remeasured_iff {nd nd' : Node ℝ} (hp : (nd.x, nd.y) = getXY nd.radius nd.angle) (hok : NodeOk nd) :
    Remeasured nd nd' ↔ nd' = turned nd := by
  have hx : nd.x = (getXY nd.radius nd.angle).1 := congrArg Prod.fst hp
  have hy : nd.y = (getXY nd.radius nd.angle).2 := congrArg Prod.snd hp
  have hr : Real.sqrt (nd.x ^ 2 + nd.y ^ 2) = nd.radius := by rw [hx, hy]; exact sqrt_getXY _ _ hok.radius
  have ha : getAngle nd.x nd.y = .ok (turned nd).angle := by
    unfold turned
    by_cases h0 : nd.radius = 0
    · have hx0 : nd.x = 0 := by rw [hx, h0]; simp [getXY]
      have hy0 : nd.y = 0 := by rw [hy, h0]; simp [getXY]
      rw [hx0, hy0, if_pos (Or.inl h0)]
      exact getAngle_origin
    · have hpos : 0 < nd.radius := lt_of_le_of_ne hok.radius (Ne.symm h0)
      by_cases h1 : nd.angle = 360
      · rw [if_pos (Or.inr h1), hx, hy, h1, getXY_360]
        exact getAngle_getXY _ 0 hpos (le_refl 0) (by norm_num)
      · rw [if_neg (by tauto), hx, hy]
        exact getAngle_getXY _ _ hpos hok.angle.1 (lt_of_le_of_ne hok.angle.2 h1)
  constructor
  · intro h
    have h1 : nd'.radius = nd.radius := by rw [h.radius]; exact hr
    have h2 : nd'.angle = (turned nd).angle := Except.ok.inj (h.angle.symm.trans ha)
    cases nd'
    cases nd
    simp only [turned, Node.mk.injEq] at *
    exact ⟨h.id, h.x, h.y, h1, h2, h.width, h.zone, h.name, h.kind⟩
  · rintro rfl
    exact ⟨rfl, rfl, rfl, rfl, rfl, rfl, rfl, hr.symm, ha⟩

theorem turned_ok {nd : Node ℝ} (h : NodeOk nd) : NodeOk (turned nd) := by
  refine ⟨h.cbd, h.radius, ?_, h.width⟩
  unfold turned
  dsimp only
  split
  · norm_num
  · exact h.angle

end Real

end Sidermit
