import Verif.Props.TotalCost
import Verif.Props.Mode
import Verif.Props.Problem

/-!
C100: the limit of frequency and the initial frequency of a mode with parallel lines.
-/

set_option linter.unusedSectionVars false

namespace Sidermit

section Generic

variable {K : Type} [Field K] [LinearOrder K] [IsStrictOrderedRing K] [PyMath K]

variable {g : Graph K} {d : Demand K} {pas : Passenger K} {net : Network K} {f : Option (Dict Str K)} {o : Optimizer K}

/-- the limit of frequency and the initial frequency that were given for the mode -/
structure GivenAs (m : Mode K) (limit start : K) : Prop where
  made : ∃ a : ModeArgs K, Mode.new m.oid a = .ok m ∧ a.fmax = some limit ∧ a.fini = some start

theorem GivenAs.values {m : Mode K} {x y : K} (h : GivenAs m x y) : m.fmax = x * (m.d : K) ∧ m.fini = y * (m.d : K) := by
  obtain ⟨a, h1, h2, h3⟩ := h.made
  obtain ⟨_, ⟨_, _, _, _, _, _, _, _, _, _, _, ⟨x', e1, e2⟩, ⟨y', e3, e4⟩⟩, _⟩ := (C18_constructor_exact _ _ _).1 h1
  rw [h2] at e1
  rw [h3] at e3
  cases e1
  cases e3
  exact ⟨e2, e4⟩

/-- **C100**: the limit of frequency that the constructor of a mode gets counts for each of its parallel lines: the constraints hold at given
frequencies exactly if every vehicle has room and on no street a parallel line of a mode has more vehicles than its limit. The
optimizer starts with the initial frequency that the constructor got on each parallel line. -/
theorem C100_given_for_each_parallel_line (hb : Built g d pas net f o) {n : Nat} (hs : CityShape g n) (hd : ∀ m ∈ net.modes, 0 < m.d)
    (hk : ∀ r ∈ net.routes, 0 ≤ r.mode.kmax) (limit start : Mode K → K) (hm : ∀ m ∈ net.modes, GivenAs m (limit m) (start m))
    (hr : ∀ r ∈ net.routes, r.mode ∈ net.modes) :
    o.fopt = net.routes.map (fun r => start r.mode * (r.mode.d : K)) ∧
    ∀ y : List K, y.length = net.routes.length → (∀ c ∈ y, 0 ≤ c) →
      ∃ fr, Gives net y fr ∧ (Carries o fr → ∃ t c, o.loads fr = .ok t ∧ o.constrains y = .ok c ∧
        ((∀ w ∈ c, w ≤ 0) ↔
          (∀ r ∈ net.routes, ∀ p ∈ t.load, p.1.1 = r.id → p.2 ≤ r.mode.kmax) ∧
          ∀ a ∈ g.nodes, ∀ b ∈ g.nodes, Street n a b → ∀ m ∈ net.modes,
            vehicleFlow net.routes fr m a.id b.id / (m.d : K) ≤ limit m)) := by
  refine ⟨?_, fun y hlen hy => ?_⟩
  · obtain ⟨_, _, _, _, _, hfopt, _⟩ := prepare_fields hb.built
    rw [hfopt, f0_fopt]
    exact List.map_congr_left fun r h => (hm _ (hr r h)).values.2
  · obtain ⟨fr, h1, h2⟩ := C57_constraints hb hs hd hk hlen hy
    refine ⟨fr, h1, fun hc => ?_⟩
    obtain ⟨t, c, h3, h4, _, h5⟩ := h2 hc
    refine ⟨t, c, h3, h4, h5.trans (and_congr_right fun _ => ?_)⟩
    have key : ∀ m ∈ net.modes, ∀ a b : Int, vehicleFlow net.routes fr m a b ≤ m.fmax ↔
        vehicleFlow net.routes fr m a b / (m.d : K) ≤ limit m := by
      intro m hmem a b
      have : (0 : K) < (m.d : K) := by exact_mod_cast hd m hmem
      rw [(hm m hmem).values.1, div_le_iff₀ this]
    exact ⟨fun h a ha b hb' hst m hmem => (key m hmem _ _).1 (h a ha b hb' hst m hmem),
      fun h a ha b hb' hst m hmem => (key m hmem _ _).2 (h a ha b hb' hst m hmem)⟩

/-- **C100**: assigned values count for all parallel lines together: assigning the values that the constructor got, as they are, changes the
limit unless there is one parallel line or the limit is 0, and the same with the initial frequency; and assigning the number of parallel
lines leaves the sum, so that the mode is not the one that the constructor makes with that number unless the number was this one, or both
frequencies are 0. -/
theorem C100_assigned_for_all_together {m : Mode K} {x y : K} (h : GivenAs m x y) (hx : 0 ≤ x) (hy : 0 ≤ y) :
    (m.assign (.fmax (some x)) = ({ m with fmax := x }, none) ∧ ({ m with fmax := x } = m ↔ m.d = 1 ∨ x = 0)) ∧
    (m.assign (.fini (some y)) = ({ m with fini := y }, none) ∧ ({ m with fini := y } = m ↔ m.d = 1 ∨ y = 0)) ∧
    ∀ k : Int, 0 ≤ k → m.assign (.d (some k)) = ({ m with d := k }, none) ∧
      (GivenAs { m with d := k } x y ↔ k = m.d ∨ (x = 0 ∧ y = 0)) := by
  obtain ⟨e1, e2⟩ := h.values
  have one : ∀ z w : K, w = z * (m.d : K) → (z = w ↔ m.d = 1 ∨ z = 0) := by
    intro z w hw
    rw [hw]
    constructor
    · intro h0
      by_cases hz : z = 0
      · exact .inr hz
      · refine .inl ?_
        have : z * 1 = z * (m.d : K) := by rw [mul_one]; exact h0
        exact_mod_cast (mul_left_cancel₀ hz this).symm
    · rintro (h0 | h0)
      · rw [h0]; simp
      · rw [h0]; simp
  refine ⟨⟨?_, ?_⟩, ⟨?_, ?_⟩, fun k hk => ⟨?_, ?_⟩⟩
  · simp [Mode.assign, checkNonneg, store, not_lt.2 hx]
  · rw [← one x _ e1]
    exact ⟨fun h => congrArg Mode.fmax h, fun h => by rw [h]⟩
  · simp [Mode.assign, checkNonneg, store, not_lt.2 hy]
  · rw [← one y _ e2]
    exact ⟨fun h => congrArg Mode.fini h, fun h => by rw [h]⟩
  · simp [Mode.assign, checkNonneg, store, not_lt.2 hk]
  · constructor
    · intro h'
      obtain ⟨d1, d2⟩ := h'.values
      have d1 : m.fmax = x * (k : K) := d1
      have d2 : m.fini = y * (k : K) := d2
      by_cases hkd : k = m.d
      · exact .inl hkd
      · have hne : (k : K) ≠ (m.d : K) := by exact_mod_cast hkd
        refine .inr ⟨?_, ?_⟩
        · rw [e1] at d1
          by_contra h0
          exact hne (mul_left_cancel₀ h0 d1).symm
        · rw [e2] at d2
          by_contra h0
          exact hne (mul_left_cancel₀ h0 d2).symm
    · rintro (rfl | ⟨rfl, rfl⟩)
      · exact h
      · obtain ⟨a, h1, h2, h3⟩ := h.made
        refine ⟨{ a with d := some k }, ?_, h2, h3⟩
        obtain ⟨_, ⟨c1, c2, c3, c4, c5, c6, c7, c8, c9, c10, c11, _, _⟩, hin⟩ := (C18_constructor_exact _ _ _).1 h1
        refine (C18_constructor_exact _ _ _).2 ⟨rfl, ⟨c1, c2, c3, c4, c5, c6, c7, c8, c9, c10, rfl, ⟨0, h2, ?_⟩, ⟨0, h3, ?_⟩⟩, ?_⟩
        · show m.fmax = 0 * (k : K)
          rw [e1]; simp
        · show m.fini = 0 * (k : K)
          rw [e2]; simp
        · obtain ⟨i1, i2, i3, i4, i5, i6, i7, i8, i9, _, i11, i12⟩ := hin
          exact ⟨i1, i2, i3, i4, i5, i6, i7, i8, i9, hk, i11, i12⟩

end Generic

section Examples

attribute [local instance] ratMath ratText

/-- buses on two parallel lines, made by the constructor with the limit 60 and the initial frequency 3 -/
def twinMode : Mode ℚ := { demoMode with d := 2, fmax := 120, fini := 6 }

theorem twinMode_given : GivenAs twinMode 60 3 :=
  ⟨⟨some "bus".toList, some 0, some 8, some 2, some (1/10), some 20, some 2, some 60, some 120, some (1/2), some (1/10), some 2, some 3⟩,
    by decide +kernel, rfl, rfl⟩

/-- the demonstration network with these buses -/
def twinNet : Network ℚ :=
  let rs := demoBuses.map fun r => { r with mode := twinMode }
  ⟨demoCity 3, rs, rs.map Route.id, [twinMode]⟩

def twinOpt : Optimizer ℚ := ((Optimizer.prepare (demoCity 3) busDemand demoFair twinNet none).toOption).getD
  ⟨demoCity 3, busDemand, demoFair, twinNet, [], [], [], ⟨[], []⟩, []⟩

theorem twinBuilt : Built (demoCity 3) busDemand demoFair twinNet none twinOpt := by
  refine ⟨isOk_of_toOption _ (by decide +kernel), by decide +kernel, ?_, demoShape.2, by norm_num [demoFair, demoPassenger]⟩
  refine ⟨?_, ?_, by norm_num [demoFair, demoPassenger], ?_, by norm_num [demoFair, demoPassenger],
    by norm_num [demoFair, demoPassenger], by norm_num [demoFair, demoPassenger]⟩
  · have : ∀ r ∈ twinNet.routes, 0 ≤ r.mode.tat ∧ 0 < r.mode.theta ∧ 0 < r.mode.v ∧ 0 < (r.mode.d : ℚ) := by decide +kernel
    exact fun r hr => ⟨(this r hr).1, (this r hr).2.1, (this r hr).2.2.1, (this r hr).2.2.2⟩
  · decide +kernel
  · exact demoAdmissible.root

/-- the hypotheses of `C100_given_for_each_parallel_line` hold; the optimizer starts with 6 vehicles per hour, 3 on each parallel line -/
example : twinOpt.fopt = [6, 6] :=
  (C100_given_for_each_parallel_line twinBuilt demoShape.1 (by decide +kernel) (by decide +kernel) (fun _ => 60) (fun _ => 3)
    (by
      intro m hm
      rw [show m = twinMode from List.mem_singleton.1 hm]
      exact twinMode_given)
    (by decide +kernel)).1.trans (by decide +kernel)

/-- 100 vehicles per hour are accepted, 50 on each parallel line; 130 are not -/
example : (twinOpt.constrains [100, 1]).map (fun c => c.all (· ≤ 0)) = .ok true ∧
    (twinOpt.constrains [130, 1]).map (fun c => c.all (· ≤ 0)) = .ok false := by decide +kernel

/-- the limit is assigned as it was given: it is halved -/
example : twinMode.assign (.fmax (some 60)) = ({ twinMode with fmax := 60 }, none) ∧ { twinMode with fmax := 60 } ≠ twinMode :=
  ⟨(C100_assigned_for_all_together twinMode_given (by norm_num) (by norm_num)).1.1, by decide +kernel⟩

end Examples

end Sidermit
