import Verif.Props.Scale
import Mathlib.Analysis.Real.Sqrt

/-!
Property C75: the best common factor on the frequencies, and how it changes with the trips.
-/

namespace Sidermit

set_option linter.unusedSectionVars false

variable {K : Type} [Field K] [LinearOrder K] [IsStrictOrderedRing K] [PyMath K]

/-- with the frequencies `e` times those of `y` the total cost is less than with any other factor -/
def BestFactor (o : Optimizer K) (y : List K) (e : K) : Prop :=
  0 < e ∧ ∃ V, o.vrc (y.map (e * ·)) = .ok V ∧
    ∀ x, 0 < x → x ≠ e → ∃ W, o.vrc (y.map (x * ·)) = .ok W ∧ V < W

/-- `a x + b / x`: from one point to another -/
theorem hyperbola_diff (a b : K) {x e : K} (hx : 0 < x) (he : 0 < e) :
    a * x + b / x - (a * e + b / e) = (x - e) * (a * (e * x) - b) / (e * x) := by
  field_simp
  ring

/-- a strict minimum of `a x + b / x` is where both parts are equal -/
theorem hyperbola_best {a b e : K} (ha : 0 ≤ a) (hb : 0 ≤ b) (he : 0 < e)
    (h : ∀ x, 0 < x → x ≠ e → a * e + b / e < a * x + b / x) : 0 < a ∧ 0 < b ∧ a * e ^ 2 = b := by
  have key : ∀ x, 0 < x → x ≠ e → 0 < (x - e) * (a * (e * x) - b) := by
    intro x hx hne
    have h1 := sub_pos.2 (h x hx hne)
    rw [hyperbola_diff a b hx he] at h1
    have hex : 0 < e * x := mul_pos he hx
    by_contra h2
    exact absurd h1 (not_lt.2 (div_nonpos_of_nonpos_of_nonneg (not_lt.1 h2) hex.le))
  have ha' : 0 < a := by
    rcases ha.lt_or_eq with h1 | h1
    · exact h1
    · have := key (2 * e) (by linarith) (by linarith)
      rw [← h1] at this
      nlinarith
  have hle : b ≤ a * e ^ 2 := by
    by_contra h1
    have h1 := not_le.1 h1
    -- between `e` and `b / (a e)`
    have hae : 0 < a * e := mul_pos ha' he
    have h2 : e < b / (a * e) := by
      rw [lt_div_iff₀ hae]
      nlinarith
    have h3 := key ((e + b / (a * e)) / 2) (by linarith) (by linarith)
    have h4 : a * (e * ((e + b / (a * e)) / 2)) = (a * e ^ 2 + b) / 2 := by field_simp
    rw [h4] at h3
    have h5 : (a * e ^ 2 + b) / 2 - b < 0 := by linarith
    have h6 : 0 < (e + b / (a * e)) / 2 - e := by linarith
    nlinarith [mul_pos h6 (neg_pos.2 h5)]
  have hge : a * e ^ 2 ≤ b := by
    by_contra h1
    have h1 := not_le.1 h1
    have hae : 0 < a * e := mul_pos ha' he
    have h0 : 0 ≤ b / (a * e) := div_nonneg hb hae.le
    have h2 : b / (a * e) < e := by
      rw [div_lt_iff₀ hae]
      nlinarith
    have h3 := key ((e + b / (a * e)) / 2) (by linarith) (by linarith)
    have h4 : a * (e * ((e + b / (a * e)) / 2)) = (a * e ^ 2 + b) / 2 := by field_simp
    rw [h4] at h3
    have h5 : 0 < (a * e ^ 2 + b) / 2 - b := by linarith
    have h6 : (e + b / (a * e)) / 2 - e < 0 := by linarith
    nlinarith [mul_pos h5 (neg_pos.2 h6)]
  have heq : a * e ^ 2 = b := le_antisymm hge hle
  exact ⟨ha', heq ▸ mul_pos ha' (pow_pos he 2), heq⟩

variable {g : Graph K} {d : Demand K} {pas : Passenger K} {net : Network K} {f : Option (Dict Str K)} {o : Optimizer K}

/-- C75: with more trips the best factor on the frequencies is larger, but less so than the trips and at least so much as their
square root -/
theorem C75_more_trips (hb : Built g d pas net f o) {n : Nat} (hs : CityShape g n) (hm : net.modes.Nodup)
    (hsen : Sensible g d pas) (hco : Costly g pas net) {y : List K} (hlen : y.length = net.routes.length) (hy : ∀ q ∈ y, 0 < q)
    {c c' : K} (hc : 0 < c) (hcc : c ≤ c') {o₁ o₂ : Optimizer K}
    (h₁ : Optimizer.prepare g (d.times c) pas net f = .ok o₁) (h₂ : Optimizer.prepare g (d.times c') pas net f = .ok o₂)
    {e e' : K} (he : BestFactor o₁ y e) (he' : BestFactor o₂ y e') :
    e ≤ e' ∧ e' / e ≤ c' / c ∧ c' / c ≤ (e' / e) ^ 2 := by
  obtain ⟨q₀, q₁, q₂, q₃, q₄, _, h1, _, h3, h4, hv⟩ := C70_cost hb hs hm hsen hco hlen hy
  have hc' : 0 < c' := hc.trans_le hcc
  have opt : ∀ {a : K} {w : Optimizer K} {z : K}, 0 < a → Optimizer.prepare g (d.times a) pas net f = .ok w →
      BestFactor w y z → 0 < q₁ ∧ q₁ * z ^ 2 = q₃ * a + q₄ * a ^ 2 := by
    intro a w z ha hw ⟨hz, V, hV, hbest⟩
    have hst : ∀ x, 0 < x → x ≠ z → q₁ * z + (q₃ * a + q₄ * a ^ 2) / z < q₁ * x + (q₃ * a + q₄ * a ^ 2) / x := by
      intro x hx hne
      obtain ⟨W, hW, hlt⟩ := hbest x hx hne
      rw [hv a z ha hz w hw] at hV
      rw [hv a x ha hx w hw] at hW
      cases hV
      cases hW
      have e1 : ∀ t : K, 0 < t → (q₃ * a + q₄ * a ^ 2) / t = q₃ * (a / t) + q₄ * (a ^ 2 / t) := by
        intro t ht
        field_simp
      rw [e1 z hz, e1 x hx]
      linarith
    have hB : 0 ≤ q₃ * a + q₄ * a ^ 2 := add_nonneg (mul_nonneg h3 ha.le) (mul_nonneg h4 (pow_nonneg ha.le 2))
    obtain ⟨p1, _, p3⟩ := hyperbola_best h1 hB hz hst
    exact ⟨p1, p3⟩
  obtain ⟨hq, hE⟩ := opt hc h₁ he
  obtain ⟨_, hE'⟩ := opt hc' h₂ he'
  have hp := he.1
  have hp' := he'.1
  refine ⟨?_, ?_, ?_⟩
  · have h5 : q₁ * e ^ 2 ≤ q₁ * e' ^ 2 := by
      rw [hE, hE']
      have := mul_le_mul_of_nonneg_left hcc h3
      have := mul_le_mul_of_nonneg_left (pow_le_pow_left₀ hc.le hcc 2) h4
      linarith
    exact (pow_le_pow_iff_left₀ hp.le hp'.le two_ne_zero).1 (le_of_mul_le_mul_left h5 hq)
  · rw [div_le_div_iff₀ hp hc]
    refine (pow_le_pow_iff_left₀ (mul_nonneg hp'.le hc.le) (mul_nonneg hc'.le hp.le) two_ne_zero).1
      (le_of_mul_le_mul_left ?_ hq)
    have e1 : q₁ * (e' * c) ^ 2 = (q₃ * c' + q₄ * c' ^ 2) * c ^ 2 := by rw [← hE']; ring
    have e2 : q₁ * (c' * e) ^ 2 = (q₃ * c + q₄ * c ^ 2) * c' ^ 2 := by rw [← hE]; ring
    rw [e1, e2]
    have h5 : 0 ≤ q₃ * (c * c' * (c' - c)) :=
      mul_nonneg h3 (mul_nonneg (mul_nonneg hc.le hc'.le) (sub_nonneg.2 hcc))
    nlinarith
  · rw [div_pow, div_le_div_iff₀ hc (pow_pos hp 2)]
    refine le_of_mul_le_mul_left ?_ hq
    have e1 : q₁ * (c' * e ^ 2) = c' * (q₃ * c + q₄ * c ^ 2) := by rw [← hE]; ring
    have e2 : q₁ * (e' ^ 2 * c) = (q₃ * c' + q₄ * c' ^ 2) * c := by rw [← hE']; ring
    rw [e1, e2]
    have h5 : 0 ≤ q₄ * (c * c' * (c' - c)) :=
      mul_nonneg h4 (mul_nonneg (mul_nonneg hc.le hc'.le) (sub_nonneg.2 hcc))
    nlinarith

/-- the total cost in terms of the factor -/
theorem factor_cost (hb : Built g d pas net f o) {n : Nat} (hs : CityShape g n) (hm : net.modes.Nodup)
    (hsen : Sensible g d pas) (hco : Costly g pas net) {y : List K} (hlen : y.length = net.routes.length) (hy : ∀ q ∈ y, 0 < q) :
    ∃ p q r : K, 0 ≤ q ∧ 0 ≤ r ∧ ∀ e, 0 < e → o.vrc (y.map (e * ·)) = .ok (p + (q * e + r / e)) := by
  obtain ⟨q₀, q₁, q₂, q₃, q₄, _, h1, _, h3, h4, hv⟩ := C70_cost hb hs hm hsen hco hlen hy
  have hsame : Optimizer.prepare g (d.times 1) pas net f = .ok (o.timesTrips 1) := (hb.times one_ne_zero).built
  have hpairs : timesTrips 1 o.pairs = o.pairs := by
    unfold timesTrips
    have : (fun p : ODResult K × Dict (StopNode K) K => (p.1.scale 1, p.2)) = id := by
      funext p
      unfold ODResult.scale
      rw [one_mul]
      rfl
    rw [this, List.map_id]
  refine ⟨q₀ + q₂, q₁, q₃ + q₄, h1, add_nonneg h3 h4, ?_⟩
  intro e he
  have h := hv 1 e one_pos he _ hsame
  have h' : (o.timesTrips 1).vrc (y.map (e * ·)) = o.vrc (y.map (e * ·)) := by
    unfold Optimizer.vrc Optimizer.loads Optimizer.costs Optimizer.operatorsCost
    simp only [Optimizer.timesTrips, hpairs]
  rw [← h', h]
  congr 1
  ring

/-- C75: where square roots exist there is a best factor, as soon as somewhere more service is costlier and somewhere else less
service is -/
theorem C75_exists (hroot : ∀ a : K, 0 < a → ∃ b, 0 < b ∧ b ^ 2 = a) (hb : Built g d pas net f o) {n : Nat} (hs : CityShape g n)
    (hm : net.modes.Nodup) (hsen : Sensible g d pas) (hco : Costly g pas net) {y : List K}
    (hlen : y.length = net.routes.length) (hy : ∀ q ∈ y, 0 < q) {a b a' b' V W V' W' : K}
    (ha : 0 < a) (hab : a < b) (hV : o.vrc (y.map (a * ·)) = .ok V) (hW : o.vrc (y.map (b * ·)) = .ok W) (hVW : V < W)
    (ha' : 0 < a') (hab' : a' < b') (hV' : o.vrc (y.map (a' * ·)) = .ok V') (hW' : o.vrc (y.map (b' * ·)) = .ok W') (hVW' : W' < V') :
    ∃ e, BestFactor o y e := by
  obtain ⟨p, q, r, hq, hr, hv⟩ := factor_cost hb hs hm hsen hco hlen hy
  have hb0 : 0 < b := ha.trans hab
  have hb0' : 0 < b' := ha'.trans hab'
  rw [hv a ha] at hV
  rw [hv b hb0] at hW
  rw [hv a' ha'] at hV'
  rw [hv b' hb0'] at hW'
  cases hV
  cases hW
  cases hV'
  cases hW'
  have hq' : 0 < q := by
    rcases hq.lt_or_eq with h | h
    · exact h
    · have h2 : r / b ≤ r / a := div_le_div_of_nonneg_left hr ha hab.le
      rw [← h] at hVW
      linarith
  have hr' : 0 < r := by
    rcases hr.lt_or_eq with h | h
    · exact h
    · have h2 : q * a' ≤ q * b' := mul_le_mul_of_nonneg_left hab'.le hq
      rw [← h] at hVW'
      simp only [zero_div] at hVW'
      linarith
  obtain ⟨e, he, hsq⟩ := hroot (r / q) (div_pos hr' hq')
  have hrq : r = q * e ^ 2 := by
    rw [hsq]
    field_simp
  refine ⟨e, he, _, hv e he, fun x hx hne => ⟨_, hv x hx, ?_⟩⟩
  have h2 := hyperbola_diff q r hx he
  have h3 : (x - e) * (q * (e * x) - r) / (e * x) = q * (x - e) ^ 2 / x := by
    rw [hrq]
    field_simp
  have h4 : 0 < q * (x - e) ^ 2 / x :=
    div_pos (mul_pos hq' (lt_of_le_of_ne (sq_nonneg _) (Ne.symm (pow_ne_zero 2 (sub_ne_zero.2 hne))))) hx
  rw [h3] at h2
  linarith

/-- real numbers have square roots -/
example (a : ℝ) (ha : 0 < a) : ∃ b, 0 < b ∧ b ^ 2 = a := ⟨√a, Real.sqrt_pos.2 ha, Real.sq_sqrt ha.le⟩

section Examples

attribute [local instance] ratMath ratText

/-- the costs of the network of two lines -/
theorem busCosts : (busOpt.timesTrips 1).vrc [2, 3] = .ok (217459 / 1350) ∧ (busOpt.timesTrips 1).vrc [4, 6] = .ok (267629 / 1350) ∧
    (busOpt.timesTrips 1).vrc [8, 12] = .ok (389914 / 1350) ∧ (busOpt.timesTrips 1).vrc [1, 3 / 2] = .ok (214319 / 1350) ∧
    (busOpt.timesTrips 2).vrc [2, 3] = .ok (366313 / 1350) ∧ (busOpt.timesTrips 2).vrc [4, 6] = .ok (401393 / 1350) :=
  ⟨by decide +kernel, by decide +kernel, by decide +kernel, by decide +kernel, by decide +kernel, by decide +kernel⟩

theorem busBest {c e : ℚ} (hc : 0 < c) (he : 0 < e) (h : 64800 * e ^ 2 = 28800 * c + 460 * c ^ 2) :
    BestFactor (busOpt.timesTrips c) [2, 3] e := by
  obtain ⟨q₀, q₁, q₂, q₃, q₄, h0, h1, h2, h3, h4, hv⟩ := C70_cost (y := [(2 : ℚ), 3]) busBuilt demoShape.1 (by decide +kernel)
    busSensible busCostly (by decide +kernel) (by decide +kernel)
  have hb : ∀ a : ℚ, 0 < a → Optimizer.prepare (demoCity 3) (busDemand.times a) demoFair busNet none = .ok (busOpt.timesTrips a) :=
    fun a ha => (busBuilt.times ha.ne').built
  obtain ⟨v1, v2, v3, v4, v5, v6⟩ := busCosts
  have hl : ∀ a : ℚ, [(2 : ℚ), 3].map (a * ·) = [a * 2, a * 3] := fun _ => rfl
  have w1 := hv 1 1 (by norm_num) (by norm_num) _ (hb 1 (by norm_num))
  have w2 := hv 1 2 (by norm_num) (by norm_num) _ (hb 1 (by norm_num))
  have w3 := hv 1 4 (by norm_num) (by norm_num) _ (hb 1 (by norm_num))
  have w5 := hv 2 1 (by norm_num) (by norm_num) _ (hb 2 (by norm_num))
  have w6 := hv 2 2 (by norm_num) (by norm_num) _ (hb 2 (by norm_num))
  rw [hl, show [(1 : ℚ) * 2, 1 * 3] = [2, 3] by norm_num, v1] at w1
  rw [hl, show [(2 : ℚ) * 2, 2 * 3] = [4, 6] by norm_num, v2] at w2
  rw [hl, show [(4 : ℚ) * 2, 4 * 3] = [8, 12] by norm_num, v3] at w3
  rw [hl, show [(1 : ℚ) * 2, 1 * 3] = [2, 3] by norm_num, v5] at w5
  rw [hl, show [(2 : ℚ) * 2, 2 * 3] = [4, 6] by norm_num, v6] at w6
  injection w1 with w1
  injection w2 with w2
  injection w3 with w3
  injection w5 with w5
  injection w6 with w6
  have k1 : q₁ = 48 := by linarith
  have k4 : q₄ = 460 / 1350 := by linarith
  have k3 : q₃ = 28800 / 1350 := by linarith
  refine ⟨he, _, hv c e hc he _ (hb c hc), fun x hx hne => ⟨_, hv c x hc hx _ (hb c hc), ?_⟩⟩
  subst k1 k3 k4
  have hd := hyperbola_diff (48 : ℚ) (48 * e ^ 2) hx he
  have hB : ∀ t : ℚ, 0 < t → 28800 / 1350 * (c / t) + 460 / 1350 * (c ^ 2 / t) = 48 * e ^ 2 / t := by
    intro t ht
    rw [eq_div_iff ht.ne']
    field_simp
    linarith
  have hpos : 0 < (x - e) * (48 * (e * x) - 48 * e ^ 2) / (e * x) := by
    have : (x - e) * (48 * (e * x) - 48 * e ^ 2) = 48 * e * (x - e) ^ 2 := by ring
    rw [this]
    exact div_pos (mul_pos (by linarith) (lt_of_le_of_ne (sq_nonneg _) (Ne.symm (pow_ne_zero 2 (sub_ne_zero.2 hne)))))
      (mul_pos he hx)
  have t1 := hB e he
  have t2 := hB x hx
  linarith

/-- C75: the hypotheses hold for two demands on the network of two lines, about four times as many trips in one as in the other; the
best frequencies are about twice as high -/
example : BestFactor (busOpt.timesTrips (1440 / 3217)) [2, 3] (1440 / 3217) ∧
    BestFactor (busOpt.timesTrips (1440 / 787)) [2, 3] (720 / 787) ∧
    (∀ c : ℚ, 0 < c → Optimizer.prepare (demoCity 3) (busDemand.times c) demoFair busNet none = .ok (busOpt.timesTrips c)) :=
  ⟨busBest (by norm_num) (by norm_num) (by norm_num), busBest (by norm_num) (by norm_num) (by norm_num),
    fun _ hc => (busBuilt.times hc.ne').built⟩

/-- C75: more service is costlier between the factors 1 and 2, and less service between 1/2 and 1/4 -/
example : (busOpt.vrc [2, 3]).toOption.map (fun V => decide (V < 162)) = some true ∧
    (busOpt.vrc [4, 6]).toOption.map (fun V => decide (162 < V)) = some true ∧
    (busOpt.vrc [1, 3 / 2]).toOption.map (fun V => decide (V < 160)) = some true ∧
    (busOpt.vrc [1 / 2, 3 / 4]).toOption.map (fun V => decide (160 < V)) = some true := by
  decide +kernel

end Examples

end Sidermit
