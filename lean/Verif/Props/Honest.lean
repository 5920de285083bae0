import Verif.Spec.Honest
import Verif.Props.Problem
import Verif.Props.OverallCases

/-!
C88: what the result of the optimisation says, when the solver tells the truth, `optimizer.py`.
-/

set_option linter.unusedSectionVars false

namespace Sidermit

section Generic

variable {K : Type} [Field K] [LinearOrder K] [IsStrictOrderedRing K] [PyMath K] {g : Graph K} {d : Demand K} {pas : Passenger K}
  {net : Network K} {f : Option (Dict Str K)} {o : Optimizer K} {tol : K} {limit : Option Int}
  {solve : Nat → Optimizer K → Py (Res K)} {fuel : Nat}

/-- constraints violated by at most `ε` -/
theorem constrains_slack (hb : Built g d pas net f o) {n : Nat} (hs : CityShape g n) (hd : ∀ m ∈ net.modes, 0 < m.d) {y v : List K}
    (hlen : y.length = net.routes.length) (hy : ∀ c ∈ y, 0 ≤ c)
    (h : o.constrains y = .ok v) {ε : K} (hε : ∀ c ∈ v, c ≤ ε) :
    ∃ fr t, Gives net y fr ∧ Carries o fr ∧ o.loads fr = .ok t ∧
      (∀ r ∈ net.routes, ∀ q ∈ t.load, q.1.1 = r.id → q.2 ≤ r.mode.kmax + ε) ∧
      ∀ a ∈ g.nodes, ∀ b ∈ g.nodes, Street n a b → ∀ m ∈ net.modes,
        vehicleFlow net.routes fr m a.id b.id ≤ m.fmax + ε * (m.d : K) := by
  obtain ⟨fr, hfr, hg⟩ := hb.vector hlen
  obtain ⟨e1, _, _, e4, _⟩ := prepare_fields hb.built
  have hcar : Carries o fr := by
    by_contra hcon
    rw [Optimizer.constrains, hfr, py_ok_bind, (C87_loads hb (hg.value hy)).2 hcon] at h
    cases h
  have hpos : ∀ m ∈ net.modes, (0 : K) < (m.d : K) := fun m hm => by exact_mod_cast hd m hm
  rw [Optimizer.constrains, hfr, py_ok_bind] at h
  obtain ⟨t, ht, h⟩ := py_bind_eq_ok.1 h
  rw [e1, e4, fmaxConstrains_ok g net.routes net.modes fr fun m hm => (hpos m hm).ne', py_ok_bind] at h
  cases h
  refine ⟨fr, t, hg, hcar, ht, ?_, ?_⟩
  · intro r hr q hq hid
    have hmem : (mostLoaded t.load).getD r.id 0 - r.mode.kmax ∈ kConstrains net.routes (mostLoaded t.load) :=
      List.mem_map.2 ⟨r, hr, rfl⟩
    have h1 := hε _ (List.mem_append_left _ hmem)
    obtain ⟨h2, h3⟩ := C45_maximum t.load r.id
    obtain ⟨m, hm⟩ := h2.2 ⟨q, hq, hid⟩
    have h4 := (h3 m hm).2.1 q hq hid
    rw [Dict.getD, hm] at h1
    simp only [Option.getD_some] at h1
    linarith
  · intro a ha b hb' hst m hm
    have h1 := hε ((vehicleFlow net.routes fr m a.id b.id - m.fmax) / (m.d : K)) (List.mem_append_right _ (by
      rw [List.mem_flatMap]
      exact ⟨(a.id, b.id), (mem_edgeIds_iff hs hb.nodes _ _).2 ⟨a, ha, b, hb', rfl, rfl, hst⟩, List.mem_map.2 ⟨m, hm, rfl⟩⟩))
    rw [div_le_iff₀ (hpos m hm)] at h1
    linarith

theorem Built.again (hb : Built g d pas net f o) {y : List K} (hlen : y.length = net.routes.length) (hy : ∀ c ∈ y, 0 ≤ c)
    {fr : Dict Str K} (hfr : foptToF o.lines y = .ok fr) {o' : Optimizer K}
    (h : Optimizer.prepare g d pas net (some fr) = .ok o') : Gives net y fr ∧ Built g d pas net (some fr) o' := by
  obtain ⟨fr', hfr', hg⟩ := hb.vector hlen
  rw [hfr] at hfr'
  cases hfr'
  refine ⟨hg, h, hb.ids, ?_, hb.nodes, hb.walk⟩
  refine ⟨hb.adm.modes, ?_, hb.adm.penalty, hb.adm.root, hb.adm.pv, hb.adm.pw, hb.adm.pa⟩
  intro r hr
  show 0 ≤ (f0 net.routes (some fr)).f.getD r.id 0
  rw [Dict.getD, (C54_start hb.ids (some fr)).2.2.2.2 fr rfl r hr]
  exact hg.value hy r.id

theorem Built.fopt_length (hb : Built g d pas net f o) : o.fopt.length = net.routes.length := by
  obtain ⟨_, _, _, _, _, hfopt, _⟩ := prepare_fields hb.built
  rw [hfopt, f0_fopt]
  simp

/-- every result comes from an optimizer built with the frequencies of an earlier one -/
theorem rounds_built (hsolve : ∀ i o s, solve i o = .ok s → s.Honest o) {f₀ : Option (Dict Str K)} {i : Nat} {x : List K}
    {rs : List (Res K)} (hr : Rounds (fun f => Optimizer.init g d pas net (some f)) solve i o x rs) :
    ∀ {f : Option (Dict Str K)}, Built g d pas net f o → (∃ j s, solve j o = .ok s ∧ s.x = x) →
    ∀ s ∈ rs, ∃ f' o' j, FromRound net solve f₀ f' ∧ Built g d pas net f' o' ∧ solve j o' = .ok s := by
  induction hr with
  | done => intro _ _ _ s hs; cases hs
  | round h1 h2 h3 _ ih =>
    rintro f hb ⟨j, s₀, hs₀, rfl⟩ s hs
    have hh := hsolve _ _ _ hs₀
    obtain ⟨hg, hb'⟩ := hb.again (hh.length.trans hb.fopt_length) hh.nonneg h1 (init_prepare h2).1
    rcases List.mem_cons.1 hs with rfl | hs
    · exact ⟨_, _, _, .inr ⟨_, _, _, _, hs₀, rfl, hg.1, hg.2⟩, hb', h3⟩
    · exact ih hb' ⟨_, _, h3, rfl⟩ s hs

/-- C88: if the solver tells the truth, the objective returned is the total cost of frequencies that carry all passengers and
exceed the capacity of the vehicles by less than a thousandth of a passenger and that of the streets by less than a thousandth
of a vehicle per parallel line; the passengers' paths are those for the initial frequencies or for the result of the round before.
The frequencies returned are these, with those below one vehicle a day replaced by 0. -/
theorem C88_result_partial (hids : (net.routes.map Route.id).Nodup)
    (hadm : Admissible net.routes pas.pt (some (f0 net.routes f).f) pas) (hnodes : DistinctIds g) (hwalk : 0 < pas.va) {n : Nat}
    (hs : CityShape g n) (hd : ∀ m ∈ net.modes, 0 < m.d)
    (hsolve : ∀ i o s, solve i o = .ok s → s.Honest o) {r : Res K}
    (h : externalOptimization g d pas net f tol limit solve fuel = .ok r) :
    ∃ f' o y c, FromRound net solve f f' ∧ Built g d pas net f' o ∧ y.length = net.routes.length ∧ (∀ b ∈ y, 0 ≤ b) ∧
      r.x = y.map (fun b => if b < 1 / 24 then 0 else b) ∧ o.vrc y = .ok c ∧ r.fn = (c : WithTop K) ∧
      ∃ fr t, Gives net y fr ∧ Carries o fr ∧ o.loads fr = .ok t ∧
        (∀ q ∈ net.routes, ∀ p ∈ t.load, p.1.1 = q.id → p.2 < q.mode.kmax + 1 / 1000) ∧
        ∀ a ∈ g.nodes, ∀ b ∈ g.nodes, Street n a b → ∀ m ∈ net.modes,
          vehicleFlow net.routes fr m a.id b.id < m.fmax + (m.d : K) / 1000 := by
  rw [externalOptimization, py_bind_eq_ok] at h
  obtain ⟨e, he, h⟩ := h
  rcases C56_choice e.list with ⟨hc, _⟩ | ⟨r', s, hr, hsl, hv, _, hlt, heq, hlen, hx⟩
  · rw [hc] at h; cases h
  rw [hr] at h
  cases h
  simp only [Prod.mk.injEq] at heq
  obtain ⟨o₀, r₀, rs, ho₀, hr₀, hrounds, hlist, _⟩ := C56_rounds he
  have hb₀ : Built g d pas net f o₀ := ⟨(init_prepare ho₀).1, hids, hadm, hnodes, hwalk⟩
  obtain ⟨f', o, j, hfrom, hb, hsol⟩ : ∃ f' o j, FromRound net solve f f' ∧ Built g d pas net f' o ∧ solve j o = .ok s := by
    rw [hlist] at hsl
    rcases List.mem_cons.1 hsl with rfl | hsl
    · exact absurd rfl hv.ran
    · rcases List.mem_cons.1 hsl with rfl | hsl
      · exact ⟨f, o₀, 0, .inl rfl, hb₀, hr₀⟩
      · exact rounds_built hsolve hrounds hb₀ ⟨_, _, hr₀, rfl⟩ s hsl
  have hh := hsolve _ _ _ hsol
  obtain ⟨c, hvrc, hfn⟩ := hh.value
  obtain ⟨v, hcon, hle⟩ := hh.kept
  obtain ⟨fr, t, hg, hcar, ht, h1, h2⟩ := constrains_slack hb hs hd (hh.length.trans hb.fopt_length) hh.nonneg hcon hle
  have hviol : s.viol < 1 / 1000 := (le_abs_self _).trans_lt hv.kept
  refine ⟨f', o, s.x, c, hfrom, hb, hh.length.trans hb.fopt_length, hh.nonneg, ?_, hvrc, heq.2.2.2.2.trans hfn, fr, t, hg, hcar, ht,
    ?_, ?_⟩
  · apply List.ext_getElem?
    intro i
    rw [List.getElem?_map]
    rcases lt_or_ge i s.x.length with hi | hi
    · obtain ⟨h3, h4⟩ := hx i s.x[i] (List.getElem?_eq_getElem hi)
      rw [List.getElem?_eq_getElem hi, Option.map_some]
      by_cases hlt : s.x[i] < 1 / 24
      · rw [if_pos hlt, h3 hlt]
      · rw [if_neg hlt, h4 (not_lt.1 hlt)]
    · rw [List.getElem?_eq_none hi, List.getElem?_eq_none (by omega), Option.map_none]
  · intro q hq p hp hid
    exact (h1 q hq p hp hid).trans_lt (by linarith)
  · intro a ha b hb' hst m hm
    refine (h2 a ha b hb' hst m hm).trans_lt ?_
    have : (0 : K) < (m.d : K) := by exact_mod_cast hd m hm
    have := mul_lt_mul_of_pos_right hviol this
    rw [one_div, inv_mul_eq_div] at this
    linarith

/-- C88: the cost in the summary is the objective returned when the paths of the passengers were those for the frequencies
returned, that is when these were not cut and had not moved in the last round -/
theorem C88_summary_partial {fr : Dict Str K} (hb : Built g d pas net (some fr) o) {res : Res K} (hgives : Gives net res.x fr)
    (hlen : res.x.length = net.routes.length) (hpos : ∀ c ∈ res.x, 0 ≤ c) {c : K} (hvrc : o.vrc res.x = .ok c)
    {f₁ : Option (Dict Str K)} {o₁ : Optimizer K} (hb₁ : Built g d pas net f₁ o₁) {fr' : Dict Str K} {fin : Optimizer K} {t : Loads K}
    (hlast : o₁.lastIteration res = .ok (fr', fin, t)) {x : Overall K} (hx : fin.overall fr' t = .ok x) : x.vrc * d.total = c := by
  obtain ⟨hg', hrun⟩ := C60_last_iteration hb₁ hlen hpos hlast
  have hsame := gives_unique hb.ids hgives hg'
  subst hsame
  have hfin := hrun.built.built
  rw [hb.built] at hfin
  cases hfin
  have := C61_objective hb₁ hlen hpos hlast hx
  rw [hvrc] at this
  exact (Except.ok.inj this).symm

end Generic

section Examples

attribute [local instance] ratMath ratText

/-- a solver that looks at one point only and tells the truth about it -/
def tellAt (x : List ℚ) (_ : Nat) (o : Optimizer ℚ) : Py (Res ℚ) :=
  if x.length = o.fopt.length ∧ ∀ c ∈ x, 0 ≤ c then do
    let c ← o.vrc x
    let v ← o.constrains x
    return ⟨x, some true, 1, "done".toList, v.foldr max 0, (c : WithTop ℚ)⟩
  else .error .ValueError

theorem le_foldr_max {l : List ℚ} {c : ℚ} (h : c ∈ l) : c ≤ l.foldr max 0 := by
  induction l with
  | nil => cases h
  | cons a l ih =>
    rw [List.foldr_cons]
    rcases List.mem_cons.1 h with rfl | h
    · exact le_max_left _ _
    · exact (ih h).trans (le_max_right _ _)

theorem tellAt_honest (x : List ℚ) : ∀ i o s, tellAt x i o = .ok s → s.Honest o := by
  intro i o s h
  unfold tellAt at h
  split at h
  · next hx =>
    obtain ⟨c, hc, h⟩ := py_bind_eq_ok.1 h
    obtain ⟨v, hv, h⟩ := py_bind_eq_ok.1 h
    cases h
    exact ⟨hx.1, hx.2, ⟨c, hc, rfl⟩, v, hv, fun _ hw => le_foldr_max hw⟩
  · cases h

/-- one passenger every six hours -/
def fewDemand : Demand ℚ := ⟨demoCity 3, [(1, [(4, 6/100), (2, 3/100), (0, 5/100)]), (4, [(1, 2/100)])], 16/100⟩

/-- frequency, objective and violation of a result -/
def shown (r : Py (Res ℚ)) : Py (List ℚ × ℚ × ℚ) := r.map fun r => (r.x, r.fn.untopD 0, r.viol)

/-- C88 fails when frequencies are cut: the point that the solver found costs 33.6 and keeps all constraints, but with the
frequencies returned the passengers of the second line have no vehicle, so their cost does not exist, and there is no table of
results -/
theorem C88_cut_fails :
    shown (externalOptimization (demoCity 3) fewDemand demoFair fairNet none 1 none (tellAt [2, 1 / 30]) 3) =
      .ok ([2, 0], 50408749 / 1500000, 0) ∧
    (runOpt fewDemand fairNet).vrc [2, 0] = .error .ZeroDivisionError ∧
    (runOpt fewDemand fairNet).networkResults (some (runRes [2, 0])) = .error .TransportNetwork := by decide +kernel

/-- two lines from 1 to 0, the second over node 4 -/
def detour : List (Route ℚ) :=
  [⟨"a".toList, demoMode, [1, 2, 0], [0, 2, 1], [1, 2, 0], [0, 2, 1], .custom⟩,
   ⟨"b".toList, demoMode, [1, 2, 4, 0], [0, 4, 2, 1], [1, 2, 4, 0], [0, 4, 2, 1], .custom⟩]

def detourNet : Network ℚ := ⟨demoCity 3, detour, detour.map Route.id, [demoMode]⟩

def detourDemand : Demand ℚ := ⟨demoCity 3, [(4, [(2, 6)])], 6⟩

/-- C88: the summary says another cost than the result, though the search has converged: the result of the first round, in which
passengers travel as with the initial frequencies, is cheaper than that of the second, in which they travel as they will -/
theorem C88_summary_differs :
    shown (externalOptimization (demoCity 3) detourDemand demoFair detourNet none 1 none (tellAt [10, 10]) 3) =
      .ok ([10, 10], 1089001 / 4000, 0) ∧
    ((runLast detourDemand detourNet [10, 10]).2.1.overall (runLast detourDemand detourNet [10, 10]).1
      (runLast detourDemand detourNet [10, 10]).2.2).map (fun x => x.vrc * detourDemand.total) = .ok (81697 / 300) := by
  decide +kernel

/-- the hypotheses of the theorems -/
example : (fairNet.routes.map Route.id).Nodup ∧
    Admissible fairNet.routes demoFair.pt (some (f0 fairNet.routes none).f) demoFair ∧ DistinctIds (demoCity 3) ∧ 0 < demoFair.va ∧
    CityShape (demoCity 3) 3 ∧ (∀ m ∈ fairNet.modes, 0 < m.d) ∧ (∀ i o s, tellAt [2, 3] i o = .ok s → s.Honest o) ∧
    (externalOptimization (demoCity 3) busDemand demoFair fairNet none 1 none (tellAt [2, 3]) 3).toOption.isSome = true :=
  have hb := runBuilt busDemand fairNet (by decide +kernel) (by decide +kernel) (by decide +kernel) (by decide +kernel)
  ⟨hb.ids, hb.adm, hb.nodes, hb.walk, demoShape.1, by decide +kernel, tellAt_honest _, by decide +kernel⟩

example : ∃ (fr : Dict Str ℚ) (o : Optimizer ℚ) (c : ℚ), Built (demoCity 3) busDemand demoFair fairNet (some fr) o ∧
    Gives fairNet (runRes [2, 3]).x fr ∧ o.vrc (runRes [2, 3]).x = .ok c ∧
    Built (demoCity 3) busDemand demoFair fairNet none (runOpt busDemand fairNet) ∧
    ∃ fr' fin t x, (runOpt busDemand fairNet).lastIteration (runRes [2, 3]) = .ok (fr', fin, t) ∧ fin.overall fr' t = .ok x := by
  have hb := runBuilt busDemand fairNet (by decide +kernel) (by decide +kernel) (by decide +kernel) (by decide +kernel)
  have hlast : (runOpt busDemand fairNet).lastIteration (runRes [2, 3]) = .ok ((runLast busDemand fairNet [2, 3]).1,
    (runLast busDemand fairNet [2, 3]).2.1, (runLast busDemand fairNet [2, 3]).2.2) := isOk_of_toOption _ fairFacts.1
  have hr := C60_last_iteration hb (res := runRes [2, 3]) (by decide) (by decide) hlast
  exact ⟨_, _, _, hr.2.built, hr.1, C61_objective hb (by decide) (by decide) hlast overallFacts, hb, _, _, _, _, hlast, overallFacts⟩

end Examples

end Sidermit
