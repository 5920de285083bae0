import Verif.Spec.Optimizer
import Verif.Proofs.Dict
import Verif.Proofs.PyLemmas
import Mathlib.Algebra.Order.BigOperators.Group.List

/-!
Lemmas about the vector of frequencies and the loop of the external optimisation.
-/

namespace Sidermit

set_option linter.unusedSectionVars false

theorem set_fresh {α β : Type} [DecidableEq α] (d : Dict α β) (k : α) (v : β) (h : k ∉ Dict.keys d) :
    Dict.set d k v = d ++ [(k, v)] := by
  induction d with
  | nil => rfl
  | cons p d ih =>
    obtain ⟨k', v'⟩ := p
    simp only [Dict.keys, List.map_cons, List.mem_cons, not_or] at h
    rw [Dict.set, if_neg (fun e => h.1 e.symm)]
    show (k', v') :: Dict.set d k v = _
    rw [ih h.2]; rfl

theorem keys_append {α β : Type} (d e : Dict α β) : Dict.keys (d ++ e) = Dict.keys d ++ Dict.keys e := List.map_append

variable {K : Type} [Field K] [LinearOrder K]

theorem startStep_foldl (routes : List (Route K)) (s : Start K) (hn : (Dict.keys s.f ++ routes.map Route.id).Nodup) :
    routes.foldl startStep s = ⟨s.f ++ routes.map (fun r => (r.id, r.mode.fini)), s.fopt ++ routes.map (·.mode.fini),
      s.lines ++ routes.map Route.id⟩ := by
  induction routes generalizing s with
  | nil => simp
  | cons r rs ih =>
    have hf : r.id ∉ Dict.keys s.f := by
      intro hm
      exact List.disjoint_of_nodup_append hn hm (by simp)
    rw [List.foldl_cons, ih, startStep]
    · simp only [set_fresh _ _ _ hf, List.map_cons, List.append_assoc, List.cons_append, List.nil_append]
    · simp only [startStep, set_fresh _ _ _ hf, keys_append]
      simpa [Dict.keys] using hn

theorem startStepWith_foldl (f : Dict Str K) (routes : List (Route K)) (s : Start K)
    (hn : (Dict.keys s.f ++ routes.map Route.id).Nodup) :
    routes.foldl (startStepWith f) s = ⟨s.f ++ routes.map (fun r => (r.id, f.getD r.id 0)),
      s.fopt ++ routes.map (·.mode.fini), s.lines ++ routes.map Route.id⟩ := by
  induction routes generalizing s with
  | nil => simp
  | cons r rs ih =>
    have hf : r.id ∉ Dict.keys s.f := by
      intro hm
      exact List.disjoint_of_nodup_append hn hm (by simp)
    rw [List.foldl_cons, ih, startStepWith]
    · simp only [set_fresh _ _ _ hf, List.map_cons, List.append_assoc, List.cons_append, List.nil_append]
    · simp only [startStepWith, set_fresh _ _ _ hf, keys_append]
      simpa [Dict.keys] using hn

theorem f0_none {routes : List (Route K)} (hn : (routes.map Route.id).Nodup) :
    f0 routes none = ⟨routes.map (fun r => (r.id, r.mode.fini)), routes.map (·.mode.fini), routes.map Route.id⟩ := by
  rw [f0, startStep_foldl _ _ (by simpa [Dict.keys] using hn)]; rfl

theorem f0_some {routes : List (Route K)} (hn : (routes.map Route.id).Nodup) (f : Dict Str K) :
    f0 routes (some f) =
      ⟨routes.map (fun r => (r.id, f.getD r.id 0)), routes.map (·.mode.fini), routes.map Route.id⟩ := by
  rw [f0, startStepWith_foldl _ _ _ (by simpa [Dict.keys] using hn)]; rfl

theorem f0_lines (routes : List (Route K)) (f : Option (Dict Str K)) : (f0 routes f).lines = routes.map Route.id := by
  have h1 : ∀ (rs : List (Route K)) (s : Start K), (rs.foldl startStep s).lines = s.lines ++ rs.map Route.id := by
    intro rs; induction rs with
    | nil => intro s; simp
    | cons r rs ih => intro s; rw [List.foldl_cons, ih]; simp [startStep]
  have h2 : ∀ (f : Dict Str K) (rs : List (Route K)) (s : Start K),
      (rs.foldl (startStepWith f) s).lines = s.lines ++ rs.map Route.id := by
    intro f rs; induction rs with
    | nil => intro s; simp
    | cons r rs ih => intro s; rw [List.foldl_cons, ih]; simp [startStepWith]
  cases f with
  | none => rw [f0, h1]; rfl
  | some f => rw [f0, h2]; rfl

theorem f0_fopt (routes : List (Route K)) (f : Option (Dict Str K)) : (f0 routes f).fopt = routes.map (·.mode.fini) := by
  have h1 : ∀ (rs : List (Route K)) (s : Start K), (rs.foldl startStep s).fopt = s.fopt ++ rs.map (·.mode.fini) := by
    intro rs; induction rs with
    | nil => intro s; simp
    | cons r rs ih => intro s; rw [List.foldl_cons, ih]; simp [startStep]
  have h2 : ∀ (f : Dict Str K) (rs : List (Route K)) (s : Start K),
      (rs.foldl (startStepWith f) s).fopt = s.fopt ++ rs.map (·.mode.fini) := by
    intro f rs; induction rs with
    | nil => intro s; simp
    | cons r rs ih => intro s; rw [List.foldl_cons, ih]; simp [startStepWith]
  cases f with
  | none => rw [f0, h1]; rfl
  | some f => rw [f0, h2]; rfl

theorem foptToF_fold (lines : List Str) (hn : lines.Nodup) (x : List K) (n : Nat) (d : Dict Str K)
    (hd : Dict.keys d = lines.take n) (hl : n + x.length ≤ lines.length) :
    (x.zipIdx n).foldlM (foptStep lines) d = .ok (d ++ (lines.drop n).zip x) := by
  induction x generalizing n d with
  | nil => simp
  | cons y x ih =>
    have hlt : n < lines.length := by simp at hl; omega
    have hdrop : lines.drop n = lines[n] :: lines.drop (n + 1) := List.drop_eq_getElem_cons hlt
    have hfresh : lines[n] ∉ Dict.keys d := by
      rw [hd]
      intro hm
      obtain ⟨i, hi, he⟩ := List.getElem_of_mem hm
      rw [List.getElem_take] at he
      have := (List.Nodup.getElem_inj_iff hn).mp he
      simp at hi; omega
    rw [List.zipIdx_cons, List.foldlM_cons]
    have hs : foptStep lines d (y, n) = .ok (d ++ [(lines[n], y)]) := by
      rw [foptStep, List.getElem?_eq_getElem hlt]
      show Except.ok (Dict.set d _ _) = _
      rw [set_fresh _ _ _ hfresh]
    rw [hs]
    show List.foldlM (foptStep lines) (d ++ [(lines[n], y)]) (x.zipIdx (n + 1)) = _
    rw [ih (n + 1)]
    · rw [hdrop, List.zip_cons_cons, List.append_assoc]; rfl
    · rw [keys_append, hd, List.take_add_one, List.getElem?_eq_getElem hlt]; rfl
    · simp at hl; omega

theorem foptToF_ok {lines : List Str} (hn : lines.Nodup) {x : List K} (hl : x.length ≤ lines.length) :
    foptToF lines x = .ok (lines.zip x) := by
  rw [foptToF, foptToF_fold lines hn x 0 [] (by simp [Dict.keys]) (by omega)]; rfl

theorem foptToF_error {lines : List Str} {x : List K} (hl : lines.length < x.length) :
    foptToF lines x = .error .KeyError := by
  have key : ∀ (x : List K) (n : Nat) (d : Dict Str K), lines.length < n + x.length → n ≤ lines.length →
      (x.zipIdx n).foldlM (foptStep lines) d = .error .KeyError := by
    intro x
    induction x with
    | nil => intro n d h h'; simp at h; omega
    | cons y x ih =>
      intro n d h h'
      rw [List.zipIdx_cons, List.foldlM_cons]
      by_cases hlt : n < lines.length
      · rw [foptStep, List.getElem?_eq_getElem hlt]
        show List.foldlM (foptStep lines) (Dict.set d _ _) (x.zipIdx (n + 1)) = _
        exact ih _ _ (by simp at h; omega) (by omega)
      · rw [foptStep, List.getElem?_eq_none (by omega)]; rfl
  exact key x 0 [] (by omega) (by omega)

theorem get?_zip (lines : List Str) (hn : lines.Nodup) (x : List K) (i : Nat) (id : Str) (hi : lines[i]? = some id) :
    Dict.get? (lines.zip x) id = x[i]? := by
  induction lines generalizing x i with
  | nil => simp at hi
  | cons l lines ih =>
    cases x with
    | nil => simp
    | cons y x =>
      rw [List.zip_cons_cons, Dict.get?_cons]
      cases i with
      | zero => simp at hi; simp [hi]
      | succ i =>
        simp at hi
        have hne : l ≠ id := by
          rintro rfl
          exact (List.nodup_cons.mp hn).1 (List.mem_of_getElem? hi)
        rw [if_neg hne, ih (List.nodup_cons.mp hn).2 x i hi]; simp

/-! ### the best result -/

theorem valid_iff (r : Res K) : r.valid = true ↔ r.Valid := by
  simp only [Res.valid, Bool.and_eq_true, decide_eq_true_eq, List.all_eq_true, Bool.not_eq_true', decide_eq_false_iff_not,
    List.mem_cons, List.not_mem_nil, or_false, not_or, not_lt]
  exact ⟨fun h => ⟨⟨h.1.1.1, h.1.1.2.1⟩, h.1.1.2.2, h.1.2, h.2⟩, fun h => ⟨⟨⟨h.1.1, h.1.2, h.2⟩, h.3⟩, h.4⟩⟩

/-- what the second loop has found after reading `l` -/
def BestOf (l : List (Res K)) (acc : WithTop K × Option (Res K)) : Prop :=
  match acc.2 with
  | none => acc.1 = ⊤ ∧ ∀ s ∈ l, s.fn = ⊤
  | some r => acc.1 = r.fn ∧ r.fn < ⊤ ∧ ∃ a b, l = a ++ r :: b ∧ (∀ s ∈ a, r.fn < s.fn) ∧ ∀ s ∈ b, r.fn ≤ s.fn

theorem betterStep_bestOf {l : List (Res K)} {acc : WithTop K × Option (Res K)} (h : BestOf l acc) (r : Res K) :
    BestOf (l ++ [r]) (betterStep acc r) := by
  obtain ⟨m, o⟩ := acc
  unfold betterStep
  cases o with
  | none =>
    obtain ⟨hm, hl⟩ := h
    simp only at hm; subst hm
    by_cases hr : r.fn < ⊤
    · rw [if_pos hr]
      exact ⟨rfl, hr, l, [], rfl, fun s hs => by rw [hl s hs]; exact hr, by simp⟩
    · rw [if_neg hr]
      refine ⟨rfl, fun s hs => ?_⟩
      rcases List.mem_append.mp hs with hs | hs
      · exact hl s hs
      · rw [List.mem_singleton] at hs; subst hs; exact not_lt_top_iff.mp hr
  | some q =>
    obtain ⟨hm, hq, a, b, he, ha, hb⟩ := h
    simp only at hm; subst hm
    by_cases hr : r.fn < q.fn
    · rw [if_pos hr]
      refine ⟨rfl, hr.trans hq, l, [], rfl, fun s hs => ?_, by simp⟩
      rw [he] at hs
      rcases List.mem_append.mp hs with hs | hs
      · exact hr.trans (ha s hs)
      · rcases List.mem_cons.mp hs with rfl | hs
        · exact hr
        · exact hr.trans_le (hb s hs)
    · rw [if_neg hr]
      refine ⟨rfl, hq, a, b ++ [r], by rw [he]; simp, ha, fun s hs => ?_⟩
      rcases List.mem_append.mp hs with hs | hs
      · exact hb s hs
      · rw [List.mem_singleton] at hs; subst hs; exact not_lt.mp hr

theorem foldl_bestOf (l pre : List (Res K)) (acc : WithTop K × Option (Res K)) (h : BestOf pre acc) :
    BestOf (pre ++ l) (l.foldl betterStep acc) := by
  induction l generalizing pre acc with
  | nil => simpa using h
  | cons r l ih =>
    have := ih (pre ++ [r]) _ (betterStep_bestOf h r)
    simpa using this

theorem betterResult_bestOf (l : List (Res K)) :
    BestOf (l.filter Res.valid) ((l.filter Res.valid).foldl betterStep (⊤, none)) := by
  simpa using foldl_bestOf (l.filter Res.valid) [] (⊤, none) ⟨rfl, by simp⟩

/-! ### the loop -/

variable [IsStrictOrderedRing K]

theorem fDistance_ok {x y : List K} (h : x.length ≤ y.length) : fDistance x y = .ok (apart x y) := by
  have key : ∀ (x : List K) (n : Nat) (d : K), n + x.length ≤ y.length →
      (x.zipIdx n).foldlM (gapStep y) d = .ok (d + apart x (y.drop n)) := by
    intro x
    induction x with
    | nil => intro n d _; simp [apart]
    | cons a x ih =>
      intro n d h
      have hlt : n < y.length := by simp at h; omega
      rw [List.zipIdx_cons, List.foldlM_cons, gapStep, List.getElem?_eq_getElem hlt]
      show List.foldlM (gapStep y) (d + |a - y[n]|) (x.zipIdx (n + 1)) = _
      rw [ih (n + 1) _ (by simp at h; omega), List.drop_eq_getElem_cons hlt]
      rw [apart, apart, List.zipWith_cons_cons, List.sum_cons, add_assoc]
  rw [fDistance, key x 0 0 (by omega)]; simp

theorem fDistance_error {x y : List K} (h : y.length < x.length) : fDistance x y = .error .IndexError := by
  have key : ∀ (x : List K) (n : Nat) (d : K), y.length < n + x.length → n ≤ y.length →
      (x.zipIdx n).foldlM (gapStep y) d = .error .IndexError := by
    intro x
    induction x with
    | nil => intro n d h h'; simp at h; omega
    | cons a x ih =>
      intro n d h h'
      rw [List.zipIdx_cons, List.foldlM_cons, gapStep]
      by_cases hlt : n < y.length
      · rw [List.getElem?_eq_getElem hlt]
        show List.foldlM (gapStep y) (d + |a - y[n]|) (x.zipIdx (n + 1)) = _
        exact ih _ _ (by simp at h; omega) (by omega)
      · rw [List.getElem?_eq_none (by omega)]; rfl
  exact key x 0 0 (by omega) (by omega)

theorem apart_nonneg (x y : List K) : 0 ≤ apart x y := by
  apply List.sum_nonneg
  intro a ha
  obtain ⟨i, hi, rfl⟩ := List.getElem_of_mem ha
  rw [List.getElem_zipWith]; exact abs_nonneg _

theorem withinTolerance_ok {x y : List K} (h : x.length ≤ y.length) (tol : K) :
    withinTolerance x y tol = .ok (decide (apart x y < tol)) := by
  rw [withinTolerance, fDistance_ok h]
  show Except.ok (decide (tol > |apart x y|)) = _
  rw [abs_of_nonneg (apart_nonneg x y)]

theorem withinTolerance_spec {x y : List K} {tol : K} {b : Bool} (h : withinTolerance x y tol = .ok b) :
    x.length ≤ y.length ∧ (b = true ↔ apart x y < tol) := by
  by_cases hl : x.length ≤ y.length
  · rw [withinTolerance_ok hl] at h
    cases h
    exact ⟨hl, by simp⟩
  · rw [withinTolerance, fDistance_error (not_le.mp hl)] at h
    cases h

theorem externalLoop_succ (make : Dict Str K → Py (Optimizer K)) (solve : Nat → Optimizer K → Py (Res K)) (tol : K)
    (limit : Option Int) (fuel i : Nat) (o : Optimizer K) (pre new : List K) (l : List (Res K)) :
    externalLoop make solve tol limit (fuel + 1) i o pre new l = (do
      let stop ← withinTolerance pre new tol
      if stop = true ∨ ∃ n ∈ limit, n < (i : Int) then return ⟨l, pre, new⟩
      else
        let f ← foptToF o.lines new
        let o' ← make f
        let r ← solve i o'
        externalLoop make solve tol limit fuel (i + 1) o' new r.x (l ++ [r])) := rfl

/-- what is known when the loop has ended: the vectors `v` of frequencies, the last two of them, and why -/
structure LoopEnd (tol : K) (limit : Option Int) (i : Nat) (v : List (List K)) (n : Nat) (e : Ended K) : Prop where
  pre : v[n]? = some e.pre
  new : v[n + 1]? = some e.new
  stays : ∀ k a b, k < n → v[k]? = some a → v[k + 1]? = some b → a.length ≤ b.length ∧ tol ≤ apart a b
  stops : e.pre.length ≤ e.new.length ∧ (apart e.pre e.new < tol ∨ ∃ m ∈ limit, m < ((i + n : Nat) : Int))
  limited : ∀ m ∈ limit, (n : Int) ≤ max 0 (m - i + 1)

theorem externalLoop_spec {make : Dict Str K → Py (Optimizer K)} {solve : Nat → Optimizer K → Py (Res K)} {tol : K}
    {limit : Option Int} {fuel i : Nat} {o : Optimizer K} {pre new : List K} {l : List (Res K)} {e : Ended K}
    (h : externalLoop make solve tol limit fuel i o pre new l = .ok e) :
    ∃ rs, Rounds make solve i o new rs ∧ e.list = l ++ rs ∧
      LoopEnd tol limit i (pre :: new :: rs.map Res.x) rs.length e := by
  induction fuel generalizing i o pre new l with
  | zero => cases h
  | succ fuel ih =>
    rw [externalLoop_succ, py_bind_eq_ok] at h
    obtain ⟨stop, hs, h⟩ := h
    obtain ⟨hlen, hstop⟩ := withinTolerance_spec hs
    by_cases hc : stop = true ∨ ∃ n ∈ limit, n < (i : Int)
    · rw [if_pos hc] at h
      cases h
      refine ⟨[], .done _ _ _, by simp, ⟨rfl, rfl, fun k a b hk => by simp at hk, ⟨hlen, ?_⟩, fun m _ => by simp⟩⟩
      rcases hc with hc | hc
      · exact .inl (hstop.mp hc)
      · right; simpa using hc
    · rw [if_neg hc] at h
      rw [not_or] at hc
      rw [py_bind_eq_ok] at h
      obtain ⟨f, hf, h⟩ := h
      rw [py_bind_eq_ok] at h
      obtain ⟨o', ho, h⟩ := h
      rw [py_bind_eq_ok] at h
      obtain ⟨r, hr, h⟩ := h
      obtain ⟨rs, hrs, hl, he⟩ := ih h
      refine ⟨r :: rs, .round hf ho hr hrs, by rw [hl]; simp, ⟨he.pre, he.new, ?_, ⟨he.stops.1, ?_⟩, ?_⟩⟩
      · intro k a b hk ha hb
        cases k with
        | zero =>
          simp at ha hb
          subst ha; subst hb
          exact ⟨hlen, not_lt.mp fun hlt => hc.1 (hstop.mpr hlt)⟩
        | succ k => exact he.stays k a b (by simpa using hk) ha hb
      · rcases he.stops.2 with hd | ⟨m, hm, hd⟩
        · exact .inl hd
        · refine .inr ⟨m, hm, ?_⟩
          simp only [List.length_cons]; push_cast at hd ⊢; omega
      · intro m hm
        have h1 := he.limited m hm
        have h2 : ¬ m < (i : Int) := fun hlt => hc.2 ⟨m, hm, hlt⟩
        simp only [List.length_cons]; push_cast at h1 ⊢; omega

theorem Rounds.solved {make : Dict Str K → Py (Optimizer K)} {solve : Nat → Optimizer K → Py (Res K)} {i : Nat}
    {o : Optimizer K} {x : List K} {rs : List (Res K)} (h : Rounds make solve i o x rs) {s : Res K} (hs : s ∈ rs) :
    ∃ i o, solve i o = .ok s := by
  induction h with
  | done => cases hs
  | round _ _ h1 _ ih =>
    rcases List.mem_cons.mp hs with rfl | hs
    · exact ⟨_, _, h1⟩
    · exact ih hs

theorem externalLoop_fuel (make : Dict Str K → Py (Optimizer K)) (solve : Nat → Optimizer K → Py (Res K)) (tol : K)
    (n : Int) (fuel fuel' i : Nat) (o : Optimizer K) (pre new : List K) (l : List (Res K))
    (h : (n - i + 1).toNat < fuel) (h' : (n - i + 1).toNat < fuel') :
    externalLoop make solve tol (some n) fuel i o pre new l = externalLoop make solve tol (some n) fuel' i o pre new l := by
  induction fuel generalizing fuel' i o pre new l with
  | zero => omega
  | succ fuel ih =>
    cases fuel' with
    | zero => omega
    | succ fuel' =>
      rw [externalLoop_succ, externalLoop_succ]
      congr 1; funext stop
      by_cases hc : stop = true ∨ ∃ m ∈ some n, m < (i : Int)
      · rw [if_pos hc, if_pos hc]
      · rw [if_neg hc, if_neg hc]
        have hn : ¬ n < (i : Int) := fun hlt => hc (.inr ⟨n, rfl, hlt⟩)
        congr 1; funext f
        congr 1; funext o'
        congr 1; funext r
        exact ih _ _ _ _ _ _ (by push_cast; omega) (by push_cast; omega)

theorem externalLoop_more {make : Dict Str K → Py (Optimizer K)} {solve : Nat → Optimizer K → Py (Res K)} {tol : K}
    {limit : Option Int} {fuel i : Nat} {o : Optimizer K} {pre new : List K} {l : List (Res K)} {e : Ended K}
    (h : externalLoop make solve tol limit fuel i o pre new l = .ok e) (k : Nat) :
    externalLoop make solve tol limit (fuel + k) i o pre new l = .ok e := by
  induction fuel generalizing i o pre new l with
  | zero => cases h
  | succ fuel ih =>
    rw [Nat.succ_add]
    rw [externalLoop_succ, py_bind_eq_ok] at h ⊢
    obtain ⟨stop, hs, h⟩ := h
    refine ⟨stop, hs, ?_⟩
    by_cases hc : stop = true ∨ ∃ n ∈ limit, n < (i : Int)
    · rw [if_pos hc] at h ⊢; exact h
    · rw [if_neg hc] at h ⊢
      rw [py_bind_eq_ok] at h ⊢
      obtain ⟨f, hf, h⟩ := h
      refine ⟨f, hf, ?_⟩
      rw [py_bind_eq_ok] at h ⊢
      obtain ⟨o', ho, h⟩ := h
      refine ⟨o', ho, ?_⟩
      rw [py_bind_eq_ok] at h ⊢
      obtain ⟨r, hr, h⟩ := h
      exact ⟨r, hr, ih h⟩

/-- the loop itself raises nothing when every vector has one component per line -/
theorem externalLoop_errors {make : Dict Str K → Py (Optimizer K)} {solve : Nat → Optimizer K → Py (Res K)} {tol : K}
    {limit : Option Int} {ids : List Str} (hn : ids.Nodup)
    (hmake : ∀ f o, make f = .ok o → o.lines = ids ∧ o.fopt.length = ids.length)
    (hsolve : ∀ i o r, solve i o = .ok r → r.x.length = o.fopt.length)
    {fuel i : Nat} {o : Optimizer K} {pre new : List K} {l : List (Res K)} {e : PyErr}
    (ho : o.lines = ids) (hp : pre.length = ids.length) (hw : new.length = ids.length)
    (h : externalLoop make solve tol limit fuel i o pre new l = .error e) :
    e = .Diverges ∨ (∃ f, make f = .error e) ∨ ∃ i o, solve i o = .error e := by
  induction fuel generalizing i o pre new l with
  | zero => left; cases h; rfl
  | succ fuel ih =>
    rw [externalLoop_succ, withinTolerance_ok (by omega), py_ok_bind] at h
    by_cases hc : decide (apart pre new < tol) = true ∨ ∃ n ∈ limit, n < (i : Int)
    · rw [if_pos hc] at h; cases h
    · rw [if_neg hc, ho, foptToF_ok hn (by omega), py_ok_bind] at h
      rcases py_bind_eq_error.mp h with h | ⟨o', ho', h⟩
      · exact .inr (.inl ⟨_, h⟩)
      · rcases py_bind_eq_error.mp h with h | ⟨r, hr, h⟩
        · exact .inr (.inr ⟨_, _, h⟩)
        · obtain ⟨h1, h2⟩ := hmake _ _ ho'
          exact ih h1 hw ((hsolve _ _ _ hr).trans h2) h

variable [PyMath K]

theorem prepare_fields {g : Graph K} {d : Demand K} {pas : Passenger K} {net : Network K} {f : Option (Dict Str K)}
    {o : Optimizer K} (h : Optimizer.prepare g d pas net f = .ok o) :
    o.graph = g ∧ o.demand = d ∧ o.pas = pas ∧ o.net = net ∧ o.f = (f0 net.routes f).f ∧
      o.fopt = (f0 net.routes f).fopt ∧ o.lines = (f0 net.routes f).lines ∧
      buildExtGraph g net.routes pas.pt (some o.f) = .ok o.ext ∧
      ∃ res shares p, allHyperpaths o.ext.nodes o.ext.edges pas d.matrix = .ok res ∧ g.p = some p ∧
        getAssignment res p pas.va pas.pa pas.pv = .ok shares ∧ o.pairs = res.zip shares := by
  rw [Optimizer.prepare] at h
  rw [py_bind_eq_ok] at h
  obtain ⟨x, hx, h⟩ := h
  rw [py_bind_eq_ok] at h
  obtain ⟨res, hres, h⟩ := h
  rw [py_bind_eq_ok] at h
  obtain ⟨p, hp, h⟩ := h
  rw [py_bind_eq_ok] at h
  obtain ⟨shares, hs, h⟩ := h
  cases h
  have hp' : g.p = some p := by
    unfold widthOf at hp
    cases hgp : g.p with
    | none => rw [hgp] at hp; cases hp
    | some q => rw [hgp] at hp; cases hp; rfl
  exact ⟨rfl, rfl, rfl, rfl, rfl, rfl, rfl, hx, res, shares, p, hres, hp', hs, rfl⟩

theorem init_prepare {g : Graph K} {d : Demand K} {pas : Passenger K} {net : Network K} {f : Option (Dict Str K)}
    {o : Optimizer K} (h : Optimizer.init g d pas net f = .ok o) :
    Optimizer.prepare g d pas net f = .ok o ∧ ∃ c, o.constrains o.fopt = .ok c := by
  rw [Optimizer.init, py_bind_eq_ok] at h
  obtain ⟨o', ho, h⟩ := h
  rw [py_bind_eq_ok] at h
  obtain ⟨c, hc, h⟩ := h
  cases h
  exact ⟨ho, c, hc⟩

end Sidermit
