import Verif.Proofs.Optimizer
import Verif.Props.UsersCost

/-!
C54, C55, C56: the vector of frequencies, the choice of a result and the external optimisation, `optimizer.py`.
-/

set_option linter.unusedSectionVars false

namespace Sidermit

section Generic

variable {K : Type} [Field K] [LinearOrder K]

/-! ## C54 -/

/-- C54: at the start there is one component and one entry per route, in the order of the network; the vector always holds the
initial frequencies of the modes, the dictionary the frequencies given, if any -/
theorem C54_start {routes : List (Route K)} (hn : (routes.map Route.id).Nodup) (f : Option (Dict Str K)) :
    (f0 routes f).lines = routes.map Route.id ∧ (f0 routes f).fopt = routes.map (·.mode.fini) ∧
    Dict.keys (f0 routes f).f = routes.map Route.id ∧
    (f = none → ∀ r ∈ routes, (f0 routes f).f.get? r.id = some r.mode.fini) ∧
    ∀ g, f = some g → ∀ r ∈ routes, (f0 routes f).f.get? r.id = some (g.getD r.id 0) := by
  have hget : ∀ (F : Route K → K) (r : Route K), (r.id, F r) ∈ routes.map (fun r => (r.id, F r)) →
      Dict.get? (routes.map fun r => (r.id, F r)) r.id = some (F r) := by
    intro F r hr
    exact Dict.get?_of_mem _ (by simpa [Dict.keys, Function.comp_def] using hn) hr
  refine ⟨f0_lines routes f, f0_fopt routes f, ?_, ?_, ?_⟩
  · cases f with
    | none => rw [f0_none hn]; simp [Dict.keys]
    | some f => rw [f0_some hn]; simp [Dict.keys]
  · rintro rfl r hr
    rw [f0_none hn]
    exact hget (fun r => r.mode.fini) r (List.mem_map.2 ⟨r, hr, rfl⟩)
  · rintro g rfl r hr
    rw [f0_some hn]
    exact hget (fun r => g.getD r.id 0) r (List.mem_map.2 ⟨r, hr, rfl⟩)

/-- C54: the dictionary has the i-th component for the i-th route, and nothing else -/
theorem C54_dictionary {lines : List Str} (hn : lines.Nodup) {x : List K} (hl : x.length ≤ lines.length) :
    ∃ d, foptToF lines x = .ok d ∧ Dict.keys d = lines.take x.length ∧
      ∀ (i : Nat) id, lines[i]? = some id → d.get? id = x[i]? := by
  refine ⟨_, foptToF_ok hn hl, ?_, fun i id hi => get?_zip lines hn x i id hi⟩
  rw [Dict.keys]
  apply List.ext_getElem (by simp; omega)
  intro i h1 h2
  rw [List.getElem_map, List.getElem_zip, List.getElem_take]

/-- C54: more components than routes raise an error -/
theorem C54_too_long {lines : List Str} {x : List K} (hl : lines.length < x.length) :
    foptToF lines x = .error .KeyError := foptToF_error hl

/-- C54: the vector is read back from the dictionary -/
theorem C54_round_trip {routes : List (Route K)} (hn : (routes.map Route.id).Nodup) (f : Option (Dict Str K)) {x : List K}
    (hl : x.length = routes.length) :
    ∃ d, foptToF (f0 routes f).lines x = .ok d ∧ routes.map (fun r => d.getD r.id 0) = x := by
  rw [f0_lines]
  refine ⟨_, foptToF_ok hn (by simp [hl]), ?_⟩
  apply List.ext_getElem (by simp [hl])
  intro i h1 h2
  simp only [List.length_map] at h1
  rw [List.getElem_map, Dict.getD, get?_zip _ hn x i _ (by simp [h1]), List.getElem?_eq_getElem h2]
  rfl

/-- C54: an optimizer built with the dictionary of a vector works with that dictionary, and starts the search again at the
initial frequencies of the modes -/
theorem C54_restart {routes : List (Route K)} (hn : (routes.map Route.id).Nodup) {x : List K}
    (hl : x.length = routes.length) :
    ∃ d, foptToF (routes.map Route.id) x = .ok d ∧ (f0 routes (some d)).f = d ∧
      (f0 routes (some d)).fopt = routes.map (·.mode.fini) := by
  refine ⟨_, foptToF_ok hn (by simp [hl]), ?_, f0_fopt _ _⟩
  rw [f0_some hn]
  simp only
  apply List.ext_getElem (by simp [hl])
  intro i h1 h2
  simp only [List.length_map] at h1
  have h3 : i < x.length := by omega
  rw [List.getElem_map, List.getElem_zip, Dict.getD, get?_zip _ hn x i _ (by simp [h1]), List.getElem?_eq_getElem h3,
    List.getElem_map]
  rfl

/-- C54: without given frequencies the vector and the dictionary of the start agree -/
theorem C54_default {routes : List (Route K)} (hn : (routes.map Route.id).Nodup) :
    foptToF (f0 routes none).lines (f0 routes none).fopt = .ok (f0 routes none).f := by
  rw [f0_none hn, foptToF_ok hn (by simp)]
  congr 1
  simp only
  rw [List.zip_map']

/-! ## C55 -/

/-- C55: the result chosen is acceptable, its objective is finite and no larger than that of any acceptable result; it is the
first of the smallest -/
theorem C55_best {l : List (Res K)} {r : Res K} (h : betterResult l = some r) :
    r.Valid ∧ r.fn < ⊤ ∧
      ∃ a b, l = a ++ r :: b ∧ (∀ s ∈ a, s.Valid → r.fn < s.fn) ∧ ∀ s ∈ b, s.Valid → r.fn ≤ s.fn := by
  have hb := betterResult_bestOf l
  rw [BestOf] at hb
  rw [betterResult] at h
  rw [h] at hb
  obtain ⟨_, hlt, a, b, he, ha, hb⟩ := hb
  obtain ⟨a', b', hl, ha', hb'⟩ := List.filter_eq_append_iff.mp he
  obtain ⟨c, d, hc, hn, hv, hd⟩ := List.filter_eq_cons_iff.mp hb'
  refine ⟨(valid_iff r).mp hv, hlt, a' ++ c, d, by rw [hl, hc]; simp, fun s hs hsv => ?_, fun s hs hsv => ?_⟩
  · rcases List.mem_append.mp hs with hs | hs
    · exact ha s (by rw [← ha']; exact List.mem_filter.2 ⟨hs, (valid_iff s).mpr hsv⟩)
    · exact absurd ((valid_iff s).mpr hsv) (hn s hs)
  · exact hb s (by rw [← hd]; exact List.mem_filter.2 ⟨hs, (valid_iff s).mpr hsv⟩)

/-- C55: nothing is chosen exactly when no acceptable result has a finite objective -/
theorem C55_none_iff (l : List (Res K)) : betterResult l = none ↔ ∀ r ∈ l, r.Valid → r.fn = ⊤ := by
  constructor
  · intro h r hr hv
    have hb := betterResult_bestOf l
    rw [BestOf] at hb
    rw [betterResult] at h
    rw [h] at hb
    exact hb.2 r (List.mem_filter.2 ⟨hr, (valid_iff r).mpr hv⟩)
  · intro h
    by_contra hne
    obtain ⟨r, hr⟩ := Option.ne_none_iff_exists'.mp hne
    obtain ⟨hv, hlt, a, b, he, _⟩ := C55_best hr
    exact absurd (h r (by rw [he]; simp) hv) hlt.ne

/-! ## C56 -/

variable [IsStrictOrderedRing K]

/-- C56: the choice at the end of the external optimisation.  Whatever was seen, either no acceptable result has a finite
objective and it raises, or it gives the best acceptable one with the frequencies below one vehicle a day replaced by 0 -/
theorem C56_choice (l : List (Res K)) :
    (finishBest l = .error .NoOptimalSolutionFound ∧ ∀ r ∈ l, r.Valid → r.fn = ⊤) ∨
    ∃ r s, finishBest l = .ok r ∧ s ∈ l ∧ s.Valid ∧ (∀ s' ∈ l, s'.Valid → s.fn ≤ s'.fn) ∧ s.fn < ⊤ ∧
      (r.success, r.status, r.message, r.viol, r.fn) = (s.success, s.status, s.message, s.viol, s.fn) ∧
      r.x.length = s.x.length ∧
      ∀ (i : Nat) y, s.x[i]? = some y → (y < 1 / 24 → r.x[i]? = some 0) ∧ (1 / 24 ≤ y → r.x[i]? = some y) := by
  cases hb : betterResult l with
  | none =>
    left
    refine ⟨?_, (C55_none_iff l).mp hb⟩
    rw [finishBest, hb]; rfl
  | some s =>
    right
    obtain ⟨hv, hlt, a, b, he, ha, hb'⟩ := C55_best hb
    have hpos : (0 : K) < 1 / 10 := by norm_num
    have hx : ∀ f ∈ truncate s.x, 0 ≤ f := by
      intro f hf
      obtain ⟨y, hy, rfl⟩ := List.mem_map.mp hf
      by_cases h : y < 1 / 24
      · rw [if_pos h]
      · rw [if_neg h]; exact hv.nonneg y hy
    refine ⟨⟨truncate s.x, s.success, s.status, s.message, s.viol, s.fn⟩, s, ?_, by rw [he]; simp, hv, ?_, hlt, rfl,
      by simp [truncate], ?_⟩
    · rw [finishBest, hb]
      simp only [statusOptimization]
      rw [raiseIf_neg (by
        rintro ⟨f, hf, hlt⟩
        have := hx f hf
        linarith), raiseIf_neg (by
        have := hv.kept
        intro hgt
        have : (1 : K) / 1000 < 1 / 10 := by norm_num
        linarith), raiseIf_neg (by
        rintro (h | h)
        · exact hv.ended.1 h
        · exact hv.ended.2 h)]
      rfl
    · intro s' hs' hv'
      rw [he] at hs'
      rcases List.mem_append.mp hs' with h | h
      · exact (ha s' h hv').le
      · rcases List.mem_cons.mp h with rfl | h
        · exact le_refl _
        · exact hb' s' h hv'
    · intro i y hy
      have hi : (truncate s.x)[i]? = some (if y < 1 / 24 then 0 else y) := by
        rw [truncate, List.getElem?_map, hy]; rfl
      exact ⟨fun h => by simp only; rw [hi, if_pos h], fun h => by simp only; rw [hi, if_neg (not_lt.mpr h)]⟩

variable [PyMath K] {g : Graph K} {d : Demand K} {pas : Passenger K} {net : Network K} {f : Option (Dict Str K)} {tol : K}
  {limit : Option Int} {solve : Nat → Optimizer K → Py (Res K)} {fuel : Nat}

/-- C56: what is returned has frequencies that are 0 or at least one vehicle a day, and the objective of an acceptable result of
the solver, the smallest of all the acceptable ones -/
theorem C56_result {r : Res K} (h : externalOptimization g d pas net f tol limit solve fuel = .ok r) :
    (∀ y ∈ r.x, y = 0 ∨ 1 / 24 ≤ y) ∧ r.status ≠ 0 ∧ r.status ≠ 3 ∧ |r.viol| < 1 / 1000 ∧ r.fn < ⊤ ∧
    ∃ e, externalResults g d pas net f tol limit solve fuel = .ok e ∧
      (∃ s ∈ e.list, s.Valid ∧ s.fn = r.fn ∧ ∃ i o, solve i o = .ok s) ∧ ∀ s ∈ e.list, s.Valid → r.fn ≤ s.fn := by
  rw [externalOptimization, py_bind_eq_ok] at h
  obtain ⟨e, he, h⟩ := h
  rcases C56_choice e.list with ⟨hc, _⟩ | ⟨r', s, hr, hs, hv, hmin, hlt, heq, hlen, hx⟩
  · rw [hc] at h; cases h
  · rw [hr] at h
    cases h
    simp only [Prod.mk.injEq] at heq
    obtain ⟨_, h2, _, h4, h5⟩ := heq
    refine ⟨?_, by rw [h2]; exact hv.ended.1, by rw [h2]; exact hv.ended.2, by rw [h4]; exact hv.kept, by rw [h5]; exact hlt, e,
      he, ⟨s, hs, hv, h5.symm, ?_⟩, by rw [h5]; exact hmin⟩
    · intro y hy
      obtain ⟨i, hi, rfl⟩ := List.getElem_of_mem hy
      have hi' : i < s.x.length := by omega
      obtain ⟨h6, h7⟩ := hx i s.x[i] (List.getElem?_eq_getElem hi')
      rw [List.getElem?_eq_getElem hi] at h6 h7
      by_cases hlt : s.x[i] < 1 / 24
      · left; exact Option.some.inj (h6 hlt)
      · right
        rw [Option.some.inj (h7 (not_lt.mp hlt))]
        exact not_lt.mp hlt
    · rw [externalResults, py_bind_eq_ok] at he
      obtain ⟨o, _, he⟩ := he
      rw [py_bind_eq_ok] at he
      obtain ⟨r0, hr0, he⟩ := he
      obtain ⟨rs, hrs, hl, _⟩ := externalLoop_spec he
      rw [hl] at hs
      simp only [List.cons_append, List.nil_append, List.mem_cons] at hs
      rcases hs with rfl | rfl | hs
      · exact absurd rfl hv.ran
      · exact ⟨0, o, hr0⟩
      · exact hrs.solved hs

/-- C56: the results are those of successive internal optimisations, each with the lines and paths for the latest frequencies;
there are at most `N + 1` of them, the search goes on while the frequencies move by the tolerance or more, and ends when they
do not or when the number of iterations is reached -/
theorem C56_rounds {e : Ended K} (h : externalResults g d pas net f tol limit solve fuel = .ok e) :
    ∃ o r rs, Optimizer.init g d pas net f = .ok o ∧ solve 0 o = .ok r ∧
      Rounds (fun f => Optimizer.init g d pas net (some f)) solve 1 o r.x rs ∧
      e.list = initialRes o.fopt :: r :: rs ∧
      (∀ n ∈ limit, ((r :: rs).length : Int) ≤ max 0 n + 1) ∧
      (∀ k a b, k < rs.length → (e.list.map Res.x)[k]? = some a → (e.list.map Res.x)[k + 1]? = some b → tol ≤ apart a b) ∧
      ((∃ a b, (e.list.map Res.x)[rs.length]? = some a ∧ (e.list.map Res.x)[rs.length + 1]? = some b ∧ apart a b < tol) ∨
        ∃ n ∈ limit, n ≤ rs.length) := by
  rw [externalResults, py_bind_eq_ok] at h
  obtain ⟨o, ho, h⟩ := h
  rw [py_bind_eq_ok] at h
  obtain ⟨r, hr, h⟩ := h
  obtain ⟨rs, hrs, hl, he⟩ := externalLoop_spec h
  have hv : e.list.map Res.x = o.fopt :: r.x :: rs.map Res.x := by rw [hl]; simp [initialRes]
  refine ⟨o, r, rs, ho, hr, hrs, by rw [hl]; rfl, ?_, ?_, ?_⟩
  · intro n hn
    have := he.limited n hn
    simp only [List.length_cons]; push_cast at this ⊢; omega
  · intro k a b hk ha hb
    rw [hv] at ha hb
    exact (he.stays k a b hk ha hb).2
  · rw [hv]
    rcases he.stops.2 with h1 | ⟨n, hn, h1⟩
    · exact .inl ⟨_, _, he.pre, he.new, h1⟩
    · exact .inr ⟨n, hn, by push_cast at h1; omega⟩

/-- C56: with a number of iterations the number of passes that the model allows does not matter: the loop ends -/
theorem C56_terminates (n : Int) (fuel fuel' : Nat) (h : n.toNat < fuel) (h' : n.toNat < fuel') :
    externalOptimization g d pas net f tol (some n) solve fuel = externalOptimization g d pas net f tol (some n) solve fuel' := by
  rw [externalOptimization, externalOptimization, externalResults, externalResults]
  congr 1
  congr 1; funext o
  congr 1; funext r
  exact externalLoop_fuel _ _ _ _ _ _ _ _ _ _ _ (by push_cast; omega) (by push_cast; omega)

/-- C56: a search that ends does so with the same result however many passes are allowed -/
theorem C56_converges {r : Res K} (h : externalOptimization g d pas net f tol limit solve fuel = .ok r) (k : Nat) :
    externalOptimization g d pas net f tol limit solve (fuel + k) = .ok r := by
  rw [externalOptimization, py_bind_eq_ok] at h ⊢
  obtain ⟨e, he, h⟩ := h
  refine ⟨e, ?_, h⟩
  rw [externalResults, py_bind_eq_ok] at he ⊢
  obtain ⟨o, ho, he⟩ := he
  refine ⟨o, ho, ?_⟩
  rw [py_bind_eq_ok] at he ⊢
  obtain ⟨r, hr, he⟩ := he
  exact ⟨r, hr, externalLoop_more he k⟩

/-- C56: with a solver that keeps the number of components nothing else is raised: the errors are those of building an
optimizer, those of the solver, and that no solution was found -/
theorem C56_errors (hn : (net.routes.map Route.id).Nodup)
    (hsolve : ∀ i o r, solve i o = .ok r → r.x.length = o.fopt.length) {e : PyErr}
    (h : externalOptimization g d pas net f tol limit solve fuel = .error e) :
    (∃ f, Optimizer.init g d pas net f = .error e) ∨ (∃ i o, solve i o = .error e) ∨
    (e = .NoOptimalSolutionFound ∧ ∃ l, externalResults g d pas net f tol limit solve fuel = .ok l ∧
      ∀ r ∈ l.list, r.Valid → r.fn = ⊤) ∨ (e = .Diverges ∧ ∀ n ∈ limit, fuel ≤ n.toNat) := by
  rw [externalOptimization] at h
  rcases py_bind_eq_error.mp h with h | ⟨l, hl, h⟩
  · have hall := h
    rw [externalResults] at h
    rcases py_bind_eq_error.mp h with h | ⟨o, ho, h⟩
    · exact .inl ⟨_, h⟩
    rcases py_bind_eq_error.mp h with h | ⟨r, hr, h⟩
    · exact .inr (.inl ⟨_, _, h⟩)
    have hmake : ∀ f' o, Optimizer.init g d pas net f' = .ok o →
        o.lines = net.routes.map Route.id ∧ o.fopt.length = (net.routes.map Route.id).length := by
      intro f' o ho
      obtain ⟨_, _, _, _, _, h6, h7, _⟩ := prepare_fields (init_prepare ho).1
      rw [h6, h7, f0_lines, f0_fopt]; simp
    obtain ⟨h1, h2⟩ := hmake _ _ ho
    by_cases hfuel : ∀ n ∈ limit, fuel ≤ n.toNat
    · rcases externalLoop_errors hn (fun f' => hmake (some f')) hsolve h1 h2 ((hsolve _ _ _ hr).trans h2) h with h | h | h
      · exact .inr (.inr (.inr ⟨h, hfuel⟩))
      · obtain ⟨f', h⟩ := h; exact .inl ⟨_, h⟩
      · exact .inr (.inl h)
    · push Not at hfuel
      obtain ⟨n, hlim, hfuel⟩ := hfuel
      cases hlim
      have hspec : ∀ (fuel i : Nat) (o : Optimizer K) (pre new : List K) (l : List (Res K)), (n - i + 1).toNat < fuel →
          o.lines = net.routes.map Route.id → pre.length = (net.routes.map Route.id).length →
          new.length = (net.routes.map Route.id).length →
          externalLoop (fun f => Optimizer.init g d pas net (some f)) solve tol (some n) fuel i o pre new l = .error e →
          (∃ f, Optimizer.init g d pas net f = .error e) ∨ ∃ i o, solve i o = .error e := by
        intro fuel
        induction fuel with
        | zero => intro i o pre new l h; omega
        | succ fuel ih =>
          intro i o pre new l hfu ho hp hw h
          rw [externalLoop_succ, withinTolerance_ok (by omega), py_ok_bind] at h
          by_cases hc : decide (apart pre new < tol) = true ∨ ∃ m ∈ some n, m < (i : Int)
          · rw [if_pos hc] at h; cases h
          · rw [if_neg hc, ho, foptToF_ok hn (by omega), py_ok_bind] at h
            have hni : ¬ n < (i : Int) := fun hlt => hc (.inr ⟨n, rfl, hlt⟩)
            rcases py_bind_eq_error.mp h with h | ⟨o', ho', h⟩
            · exact .inl ⟨_, h⟩
            · rcases py_bind_eq_error.mp h with h | ⟨r, hr, h⟩
              · exact .inr ⟨_, _, h⟩
              · obtain ⟨h1, h2⟩ := hmake _ _ ho'
                exact ih (i + 1) o' new r.x _ (by push_cast; omega) h1 hw ((hsolve _ _ _ hr).trans h2) h
      rcases hspec fuel 1 o o.fopt r.x _ (by push_cast; omega) h1 h2 ((hsolve _ _ _ hr).trans h2) h with h | h
      · exact .inl h
      · exact .inr (.inl h)
  · rcases C56_choice l.list with ⟨hc, hnone⟩ | ⟨r', s, hr, _⟩
    · rw [hc] at h
      cases h
      exact .inr (.inr (.inl ⟨rfl, l, hl, hnone⟩))
    · rw [hr] at h; cases h

end Generic

section Examples

attribute [local instance] ratMath ratText

/-- a network with two lines of buses -/
def busNet : Network ℚ := ⟨demoCity 3, demoBuses, demoBuses.map Route.id, [demoMode]⟩

def busDemand : Demand ℚ := ⟨demoCity 3, busOD, 16⟩

/-- C54: its lines have different names, and a vector of two components is read back -/
example : (busNet.routes.map Route.id).Nodup ∧
    (foptToF (f0 busNet.routes none).lines [3, (5 : ℚ)]).toOption = some [("a".toList, 3), ("c".toList, 5)] ∧
    (f0 busNet.routes (some [("c".toList, (7 : ℚ))])).f = [("a".toList, 0), ("c".toList, 7)] ∧
    (f0 busNet.routes (some [("c".toList, (7 : ℚ))])).fopt = [1, 1] := by decide +kernel

/-- results of the solver: at first an unfinished one with the smallest objective, then acceptable ones -/
def busResults : List (Res ℚ) :=
  [⟨[2, 1], some false, 0, [], 0, (3 : ℚ)⟩, ⟨[1/2, 1/30], some true, 1, [], 0, (9 : ℚ)⟩, ⟨[1, 1], some true, 2, [], 1/2, (4 : ℚ)⟩,
   ⟨[1/30, 2], some true, 2, [], 1/5000, (8 : ℚ)⟩, ⟨[2, 2], some true, 1, [], 0, (8 : ℚ)⟩, ⟨[-1, 2], some true, 1, [], 0, (5 : ℚ)⟩]

/-- C55: the first of the two with the smallest objective among the acceptable ones -/
example : (betterResult busResults).map Res.x = some [1/30, 2] := by decide +kernel

/-- C55: an acceptable result without a finite objective is not chosen -/
example : betterResult [(⟨[1], some true, 1, [], 0, ⊤⟩ : Res ℚ)] = none := by decide +kernel

/-- a solver that gives these results one after the other -/
def busSolver (i : Nat) (_ : Optimizer ℚ) : Py (Res ℚ) := .ok (busResults.getD i ⟨[1, 1], some true, 1, [], 0, (7 : ℚ)⟩)

/-- C56: with at most two iterations the solver is called three times, and the second result is taken with its second frequency
replaced by 0 -/
example : ((externalResults (demoCity 3) busDemand demoFair busNet none (1/100) (some 2) busSolver 5).toOption.map fun e =>
      e.list.length) = some 4 ∧
    ((externalOptimization (demoCity 3) busDemand demoFair busNet none (1/100) (some 2) busSolver 5).toOption.map fun r =>
      (r.x, r.status)) = some ([1/2, 0], 1) := by decide +kernel

/-- C56: without a limit it ends when the frequencies stay as they are, with the best result -/
example : ((externalResults (demoCity 3) busDemand demoFair busNet none (1/100) none busSolver 9).toOption.map fun e =>
      (e.list.length, e.pre, e.new)) = some (9, [1, 1], [1, 1]) ∧
    ((externalOptimization (demoCity 3) busDemand demoFair busNet none (1/100) none busSolver 9).toOption.map Res.x) =
      some [1, 1] := by decide +kernel

/-- C56: the solver keeps the number of components -/
example : ∀ i o r, busSolver i o = .ok r → r.x.length = 2 := by
  intro i o r h
  cases h
  rcases i with _ | _ | _ | _ | _ | _ | i <;> rfl

end Examples

end Sidermit
