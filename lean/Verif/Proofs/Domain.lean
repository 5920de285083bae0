import Verif.Proofs.Loading

/-!
Lemmas on the frequencies for which the loading ends with an exception.
-/

set_option linter.unusedSectionVars false

namespace Sidermit

/-- a loop whose passes end or fail with one exception -/
theorem foldlM_cases {α σ : Type} {step : σ → α → Py σ} {P : α → Prop} {err : PyErr} : ∀ (l : List α) (t : σ),
    (∀ t, ∀ a ∈ l, (∃ t', step t a = .ok t' ∧ P a) ∨ step t a = .error err ∧ ¬ P a) →
    (∃ t', l.foldlM step t = .ok t' ∧ ∀ a ∈ l, P a) ∨ l.foldlM step t = .error err ∧ ∃ a ∈ l, ¬ P a
  | [], t, _ => .inl ⟨t, rfl, by simp⟩
  | a :: l, t, h => by
    rw [List.foldlM_cons]
    rcases h t a (by simp) with ⟨t', h1, h2⟩ | ⟨h1, h2⟩
    · rw [h1, py_ok_bind]
      rcases foldlM_cases l t' fun t b hb => h t b (List.mem_cons_of_mem _ hb) with ⟨t2, h3, h4⟩ | ⟨h3, b, hb, hnb⟩
      · exact .inl ⟨t2, h3, by
          intro b hb
          rcases List.mem_cons.1 hb with rfl | hb
          · exact h2
          · exact h4 b hb⟩
      · exact .inr ⟨h3, b, List.mem_cons_of_mem _ hb, hnb⟩
    · rw [h1]
      exact .inr ⟨rfl, a, by simp, h2⟩

variable {K : Type} [Field K] [LinearOrder K]

theorem gens_subset (kids : Item K → List (Item K)) {n : Nat} (hn : 0 < n) (l : List (Item K)) : ∀ w ∈ l, w ∈ gens kids n l := by
  intro w hw
  obtain ⟨m, rfl⟩ : ∃ m, n = m + 1 := ⟨n - 1, by omega⟩
  exact List.mem_append_left _ hw

theorem gens_closed (kids : Item K → List (Item K)) : ∀ (n : Nat) (l : List (Item K)), genN kids n l = [] →
    ∀ u ∈ gens kids n l, ∀ w ∈ kids u, w ∈ gens kids n l
  | 0, _, _, u, hu, _, _ => by cases hu
  | n + 1, l, h, u, hu, w, hw => by
    rw [gens] at hu ⊢
    rw [genN] at h
    apply List.mem_append_right
    rcases List.mem_append.1 hu with hu | hu
    · have hm : w ∈ l.flatMap kids := List.mem_flatMap.2 ⟨u, hu, hw⟩
      cases n with
      | zero =>
        rw [genN] at h
        rw [h] at hm
        cases hm
      | succ n => exact gens_subset kids (by omega) _ w hm
    · exact gens_closed kids n _ h u hu w hw

variable {f : Dict Str K} {succ : ENode K → List (EEdge K)} {dest : CityNode K}

theorem gens_edge : ∀ (n : Nat) (l : List (Item K)), (∀ w ∈ l, ∃ e ∈ succ w.i, e.j = w.j) →
    ∀ w ∈ gens (loadKids f succ dest) n l, ∃ e ∈ succ w.i, e.j = w.j
  | 0, _, _ => by simp [gens]
  | n + 1, l, hl => by
    intro w hw
    rcases List.mem_append.1 hw with hw | hw
    · exact hl w hw
    · refine gens_edge n _ ?_ w hw
      intro w' hw'
      obtain ⟨u, hu, hu'⟩ := List.mem_flatMap.1 hw'
      unfold loadKids at hu'
      split at hu'
      · cases hu'
      · obtain ⟨e, he, rfl⟩ := List.mem_map.1 hu'
        exact ⟨e, he, rfl⟩

/-- an element at which the loading does not divide by zero -/
def Item.Fine (f : Dict Str K) (succ : ENode K → List (EEdge K)) (w : Item K) : Prop :=
  ∀ s n, w.i = .stop s → w.j = .route n → ((succ (.stop s)).map fun b => lineF f b.j).sum ≠ 0

theorem loadEff_cases {w : Item K} (hw : ∀ s n, w.i = .stop s → w.j = .route n → ∀ b ∈ succ (.stop s), ∃ m, b.j = .route m)
    (t : Loads K) :
    (∃ t', loadEff f succ t w = .ok t' ∧ w.Fine f succ) ∨ loadEff f succ t w = .error .ZeroDivisionError ∧ ¬ w.Fine f succ := by
  obtain ⟨i, j, pax⟩ := w
  simp only at hw
  unfold loadEff visit Item.Fine
  cases i with
  | city c => left; cases j <;> exact ⟨_, rfl, by simp⟩
  | route n => left; cases j <;> exact ⟨_, rfl, by simp⟩
  | stop s =>
    cases j with
    | city c => exact .inl ⟨_, rfl, by simp⟩
    | stop s' => exact .inl ⟨_, rfl, by simp⟩
    | route n =>
      have h1 := hw s n rfl rfl
      by_cases h2 : ((succ (.stop s)).map fun b => lineF f b.j).sum = 0
      · right
        refine ⟨?_, fun h => h s n rfl rfl h2⟩
        simp only [takeLine, accumulated_ok f h1, py_ok_bind, h2, pyDiv]
        rfl
      · left
        simp only [takeLine_ok pax h1 h2, py_ok_bind]
        refine ⟨_, rfl, ?_⟩
        intro s' n' hs _
        cases hs
        exact h2

end Sidermit
