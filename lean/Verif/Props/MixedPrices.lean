import Verif.Props.Prices

/-!
C85: prices between two others.
-/

set_option linter.unusedSectionVars false

namespace Sidermit

section Generic

variable {K : Type} [Field K] [LinearOrder K] [IsStrictOrderedRing K] [PyMath K] {g : Graph K} {d : Demand K}
  {pas : Passenger K} {net : Network K} {f : Option (Dict Str K)} {o o₁ o₂ o₃ : Optimizer K}

/-- all prices of `c` are `a` times those of `c₁` and `1 - a` times those of `c₂` -/
structure Change.Mixed (a : K) (c c₁ c₂ : Change K) : Prop where
  co : ∀ i, c.co i = a * c₁.co i + (1 - a) * c₂.co i
  c1 : ∀ i, c.c1 i = a * c₁.c1 i + (1 - a) * c₂.c1 i
  c2 : ∀ i, c.c2 i = a * c₁.c2 i + (1 - a) * c₂.c2 i
  spv : c.spv = a * c₁.spv + (1 - a) * c₂.spv
  spw : c.spw = a * c₁.spw + (1 - a) * c₂.spw
  spa : c.spa = a * c₁.spa + (1 - a) * c₂.spa
  /-- the price of a transfer -/
  change : c.spt * c.spv = a * (c₁.spt * c₁.spv) + (1 - a) * (c₂.spt * c₂.spv)

theorem mixed_rise {a : K} {c c₁ c₂ : Change K} (hc : c.Mixed a c₁ c₂) (pas : Passenger K) (s : Usage K) :
    (c.rise pas).bill s = a * (c₁.rise pas).bill s + (1 - a) * (c₂.rise pas).bill s := by
  unfold Prices.bill
  have h1 : ∀ l : List (Mode K × K × K), (l.map fun l => (c.rise pas).vehicle l.1 * l.2.1 + (c.rise pas).place l.1 * l.2.2).sum =
      a * (l.map fun l => (c₁.rise pas).vehicle l.1 * l.2.1 + (c₁.rise pas).place l.1 * l.2.2).sum +
      (1 - a) * (l.map fun l => (c₂.rise pas).vehicle l.1 * l.2.1 + (c₂.rise pas).place l.1 * l.2.2).sum := by
    intro l
    induction l with
    | nil => simp
    | cons x t ih =>
      simp only [List.map_cons, List.sum_cons, ih]
      simp only [Change.rise, hc.co, hc.c1]
      ring
  have h2 : ∀ l : List (Mode K × K), (l.map fun l => (c.rise pas).street l.1 * l.2).sum =
      a * (l.map fun l => (c₁.rise pas).street l.1 * l.2).sum + (1 - a) * (l.map fun l => (c₂.rise pas).street l.1 * l.2).sum := by
    intro l
    induction l with
    | nil => simp
    | cons x t ih =>
      simp only [List.map_cons, List.sum_cons, ih]
      simp only [Change.rise, hc.c2]
      ring
  rw [h1, h2]
  have h3 : c.spt / 60 * c.spv = (a * (c₁.spt * c₁.spv) + (1 - a) * (c₂.spt * c₂.spv)) / 60 := by rw [← hc.change]; ring
  simp only [Change.rise, hc.spw, hc.spa, h3]
  rw [hc.spv]
  ring

/-- C85: at given frequencies the objective for mixed prices is the mixture of the objectives. -/
theorem C85_mixed_objective (h : pas.pv ≠ 0) {a : K} {c c₁ c₂ : Change K} (hc : c.Mixed a c₁ c₂)
    (ho : Optimizer.init g d pas net f = .ok o)
    (ho₁ : Optimizer.init g d (c₁.passenger pas) (c₁.network net) f = .ok o₁)
    (ho₂ : Optimizer.init g d (c₂.passenger pas) (c₂.network net) f = .ok o₂)
    (ho₃ : Optimizer.init g d (c.passenger pas) (c.network net) f = .ok o₃) {x : List K} {v : K} (hv : o₃.vrc x = .ok v) :
    ∃ v₁ v₂, o₁.vrc x = .ok v₁ ∧ o₂.vrc x = .ok v₂ ∧ v = a * v₁ + (1 - a) * v₂ := by
  have h1 := C85_rise h ho ho₁ x
  have h2 := C85_rise h ho ho₂ x
  have h3 := C85_rise h ho ho₃ x
  have hb := C85_bill ho x
  rw [h3] at hv
  cases hu : o.usage x with
  | error e => rw [hu] at hv; cases hv
  | ok s =>
    rw [hu] at hb h1 h2 hv
    rw [hb] at h1 h2 hv
    refine ⟨_, _, h1, h2, ?_⟩
    rw [← Except.ok.inj hv, mixed_rise hc]
    ring

/-- C85: the smallest cost is a concave function of the prices: for prices between two others it is not smaller than the
mixture of the smallest costs for these. -/
theorem C85_concave (h : pas.pv ≠ 0) {a : K} (ha0 : 0 ≤ a) (ha1 : a ≤ 1) {c c₁ c₂ : Change K} (hc : c.Mixed a c₁ c₂)
    (ho : Optimizer.init g d pas net f = .ok o)
    (ho₁ : Optimizer.init g d (c₁.passenger pas) (c₁.network net) f = .ok o₁)
    (ho₂ : Optimizer.init g d (c₂.passenger pas) (c₂.network net) f = .ok o₂)
    (ho₃ : Optimizer.init g d (c.passenger pas) (c.network net) f = .ok o₃) {A : Set (List K)} {x₁ x₂ x : List K} {v₁ v₂ v : K}
    (hx₁ : Best o₁ A x₁ v₁) (hx₂ : Best o₂ A x₂ v₂) (hx : Best o₃ A x v) : a * v₁ + (1 - a) * v₂ ≤ v := by
  obtain ⟨w₁, w₂, h1, h2, rfl⟩ := C85_mixed_objective h hc ho ho₁ ho₂ ho₃ hx.value
  exact add_le_add (mul_le_mul_of_nonneg_left (hx₁.best x hx.mem w₁ h1) ha0)
    (mul_le_mul_of_nonneg_left (hx₂.best x hx.mem w₂ h2) (sub_nonneg.2 ha1))

/-- C85: so frequencies that are best for two sets of prices are best for all prices between them. -/
theorem C85_best_between (h : pas.pv ≠ 0) {a : K} (ha0 : 0 ≤ a) (ha1 : a ≤ 1) {c c₁ c₂ : Change K} (hc : c.Mixed a c₁ c₂)
    (ho : Optimizer.init g d pas net f = .ok o)
    (ho₁ : Optimizer.init g d (c₁.passenger pas) (c₁.network net) f = .ok o₁)
    (ho₂ : Optimizer.init g d (c₂.passenger pas) (c₂.network net) f = .ok o₂)
    (ho₃ : Optimizer.init g d (c.passenger pas) (c.network net) f = .ok o₃) {A : Set (List K)} {x : List K} {v₁ v₂ : K}
    (hx₁ : Best o₁ A x v₁) (hx₂ : Best o₂ A x v₂) : Best o₃ A x (a * v₁ + (1 - a) * v₂) := by
  have hval : ∃ v, o₃.vrc x = .ok v := by
    rw [C85_rise h ho ho₃ x]
    have h1 := hx₁.value
    rw [C85_rise h ho ho₁ x] at h1
    cases hu : o.usage x with
    | error e => rw [hu] at h1; cases h1
    | ok s =>
      rw [hu] at h1
      cases hw : o.vrc x with
      | error e => rw [hw] at h1; cases h1
      | ok w => exact ⟨_, rfl⟩
  obtain ⟨v, hv⟩ := hval
  obtain ⟨w₁, w₂, h1, h2, rfl⟩ := C85_mixed_objective h hc ho ho₁ ho₂ ho₃ hv
  rw [hx₁.value] at h1
  rw [hx₂.value] at h2
  cases h1
  cases h2
  refine ⟨hx₁.mem, hv, fun y hy w hw => ?_⟩
  obtain ⟨w₁, w₂, h1, h2, rfl⟩ := C85_mixed_objective h hc ho ho₁ ho₂ ho₃ hw
  exact add_le_add (mul_le_mul_of_nonneg_left (hx₁.best y hy w₁ h1) ha0)
    (mul_le_mul_of_nonneg_left (hx₂.best y hy w₂ h2) (sub_nonneg.2 ha1))

end Generic

/-! ## examples -/

section Examples

attribute [local instance] ratMath ratText

/-- an hour of waiting costs 5 more: a quarter of the way to 20 more -/
def lessDear : Change ℚ := { Change.none demoFair with spw := demoFair.spw + 5 }

example : lessDear.Mixed (1/4) dearWait (Change.none demoFair) :=
  ⟨fun _ => by norm_num [lessDear, dearWait, Change.none], fun _ => by norm_num [lessDear, dearWait, Change.none],
    fun _ => by norm_num [lessDear, dearWait, Change.none], by norm_num [lessDear, dearWait, Change.none, demoFair, demoPassenger],
    by norm_num [lessDear, dearWait, Change.none, demoFair, demoPassenger], by norm_num [lessDear, dearWait, Change.none, demoFair, demoPassenger],
    by norm_num [lessDear, dearWait, Change.none, demoFair, demoPassenger]⟩

/-- the optimizer with these prices -/
def lessDearOpt : Optimizer ℚ :=
  ((Optimizer.init (demoCity 3) busDemand (lessDear.passenger demoFair) (lessDear.network busNet) none).toOption).getD
    busOpt

/-- running less often is still best, and costs more than a quarter of the way to the best cost there -/
example : (lessDearOpt.vrc [2, 3]).toOption = some (217459 / 1350 + 5 * (16 / 3)) ∧
    (lessDearOpt.vrc [4, 6]).toOption = some (267629 / 1350 + 5 * (8 / 3)) ∧
    (1/4 : ℚ) * (267629 / 1350 + 20 * (8 / 3)) + (1 - 1/4) * (217459 / 1350) < 217459 / 1350 + 5 * (16 / 3) := by
  refine ⟨by decide +kernel, by decide +kernel, by norm_num⟩

end Examples

end Sidermit
