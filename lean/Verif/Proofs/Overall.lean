import Verif.Props.Results

/-!
Lemmas about the tables per mode of the overall results.
-/

set_option linter.unusedSectionVars false

namespace Sidermit

variable {K : Type} [Field K] [LinearOrder K] [IsStrictOrderedRing K]

/-- what the loop over the lines keeps -/
structure ModeTable.Ok (cycle f k : Dict Str K) (rs : List (Route K)) (t : ModeTable K) : Prop where
  fleet : ∀ m, t.fleet.get? m = if runningOf f m rs = [] then none else
    some ((runningOf f m rs).map fun r => f.getD r.id 0 * cycle.getD r.id 0).sum
  lines : ∀ m, t.lines.get? m = if runningOf f m rs = [] then none else some (m.d * (runningOf f m rs).length)
  sizes : ∀ m, t.sizes.get? m = if runningOf f m rs = [] then none else some ((runningOf f m rs).map fun r => k.getD r.id 0)
  nodup : (Dict.keys t.sizes).Nodup

theorem runningOf_append (f : Dict Str K) (m : Mode K) (rs : List (Route K)) (r : Route K) :
    runningOf f m (rs ++ [r]) = if r.mode = m ∧ 0 < f.getD r.id 0 then runningOf f m rs ++ [r] else runningOf f m rs := by
  unfold runningOf
  rw [List.filter_append, List.filter_singleton]
  by_cases h : r.mode = m ∧ 0 < f.getD r.id 0 <;> simp [h]

theorem modeTable_step (cycle f k : Dict Str K) (rs : List (Route K)) (r : Route K) (t : ModeTable K) (ih : t.Ok cycle f k rs) :
    (modeStep cycle f k t r).Ok cycle f k (rs ++ [r]) := by
  unfold modeStep
  by_cases hr : f.getD r.id 0 > 0
  · rw [if_pos hr]
    have hself : runningOf f r.mode (rs ++ [r]) = runningOf f r.mode rs ++ [r] := by
      rw [runningOf_append, if_pos ⟨rfl, hr⟩]
    have hne : ∀ m, m ≠ r.mode → runningOf f m (rs ++ [r]) = runningOf f m rs := fun m hm => by
      rw [runningOf_append, if_neg fun h => hm h.1.symm]
    refine ⟨?_, ?_, ?_, Dict.nodup_keys_set _ _ _ ih.nodup⟩
    · intro m
      by_cases hm : m = r.mode
      · subst hm
        rw [hself, Dict.get?_set_self, if_neg (by simp), Dict.getD, ih.fleet]
        by_cases h0 : runningOf f r.mode rs = [] <;> simp [h0]
      · rw [hne m hm, Dict.get?_set_ne _ _ hm, ih.fleet]
    · intro m
      by_cases hm : m = r.mode
      · subst hm
        rw [hself, Dict.get?_set_self, if_neg (by simp), Dict.getD, ih.lines]
        by_cases h0 : runningOf f r.mode rs = [] <;> simp [h0, mul_add]
      · rw [hne m hm, Dict.get?_set_ne _ _ hm, ih.lines]
    · intro m
      by_cases hm : m = r.mode
      · subst hm
        rw [hself, Dict.get?_set_self, if_neg (by simp), Dict.getD, ih.sizes]
        by_cases h0 : runningOf f r.mode rs = [] <;> simp [h0]
      · rw [hne m hm, Dict.get?_set_ne _ _ hm, ih.sizes]
  · rw [if_neg hr]
    have : ∀ m, runningOf f m (rs ++ [r]) = runningOf f m rs := fun m => by
      rw [runningOf_append, if_neg fun h => hr h.2]
    exact ⟨fun m => by rw [this]; exact ih.fleet m, fun m => by rw [this]; exact ih.lines m,
      fun m => by rw [this]; exact ih.sizes m, ih.nodup⟩

theorem modeTable_ok (cycle f k : Dict Str K) (rs : List (Route K)) :
    (rs.foldl (modeStep cycle f k) ⟨[], [], []⟩).Ok cycle f k rs := by
  induction rs using List.reverseRecOn with
  | nil => exact ⟨fun _ => rfl, fun _ => rfl, fun _ => rfl, List.nodup_nil⟩
  | append_singleton rs r ih =>
    rw [List.foldl_append, List.foldl_cons, List.foldl_nil]
    exact modeTable_step cycle f k rs r _ ih

theorem averages_fold (sizes : Dict (Mode K) (List K)) (acc : Dict (Mode K) K) (hn : (Dict.keys acc ++ Dict.keys sizes).Nodup)
    (hl : ∀ p ∈ sizes, p.2 ≠ []) :
    sizes.foldlM (fun d p => do
      let q ← pyDiv p.2.sum (p.2.length : K)
      return d.set p.1 q) acc = (.ok (acc ++ sizes.map fun p => (p.1, p.2.sum / (p.2.length : K))) : Py _) := by
  induction sizes generalizing acc with
  | nil => simp [py_pure]
  | cons p t ih =>
    have h0 : ((p.2.length : K)) ≠ 0 := by
      have := hl p (by simp)
      exact_mod_cast fun h => this (List.length_eq_zero_iff.1 h)
    have hp : p.1 ∉ Dict.keys acc := by
      intro h
      exact (List.nodup_append.1 hn).2.2 _ h p.1 (by simp [Dict.keys]) rfl
    rw [List.foldlM_cons, pyDiv_ok h0, py_ok_bind]
    simp only [py_pure, py_ok_bind] at ih ⊢
    rw [set_fresh _ _ _ hp, ih]
    · simp
    · simpa [Dict.keys, List.append_assoc] using hn
    · exact fun q hq => hl q (by simp [hq])

theorem get?_mapValues {α β γ : Type} [DecidableEq α] (h : β → γ) (d : Dict α β) (a : α) :
    Dict.get? (d.map fun p => (p.1, h p.2)) a = (d.get? a).map h := by
  induction d with
  | nil => rfl
  | cons p t ih =>
    rw [List.map_cons]
    by_cases hp : p.1 = a
    · simp [Dict.get?, hp]
    · simp [Dict.get?, hp, ih]

theorem averages_ok {cycle f k : Dict Str K} {rs : List (Route K)} {t : ModeTable K} (h : t.Ok cycle f k rs) :
    ∃ s, averages t.sizes = .ok s ∧ ∀ m, s.get? m = if runningOf f m rs = [] then none else
      some (((runningOf f m rs).map fun r => k.getD r.id 0).sum / ((runningOf f m rs).length : K)) := by
  refine ⟨_, averages_fold t.sizes [] (by simpa [Dict.keys] using h.nodup) ?_, ?_⟩
  · intro p hp hp2
    have := h.sizes p.1
    rw [Dict.get?_of_mem _ h.nodup (v := p.2) hp] at this
    by_cases h0 : runningOf f p.1 rs = []
    · simp [h0] at this
    · rw [if_neg h0, Option.some.injEq, hp2] at this
      exact h0 (List.map_eq_nil_iff.1 this.symm)
  · intro m
    rw [List.nil_append, get?_mapValues (fun l : List K => l.sum / (l.length : K)), h.sizes]
    by_cases h0 : runningOf f m rs = [] <;> simp [h0]

end Sidermit
