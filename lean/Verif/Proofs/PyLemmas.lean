import Verif.Base

/-! Rewriting of `Py` computations. -/

namespace Sidermit

@[simp] theorem py_ok_bind {α β : Type} (a : α) (f : α → Py β) : (Except.ok a >>= f : Py β) = f a := rfl
@[simp] theorem py_pure_bind {α β : Type} (a : α) (f : α → Py β) : ((pure a : Py α) >>= f) = f a := rfl
@[simp] theorem py_error_bind {α β : Type} (e : PyErr) (f : α → Py β) :
    ((Except.error e : Py α) >>= f) = Except.error e := rfl
@[simp] theorem py_throw {α : Type} (e : PyErr) : (throw e : Py α) = Except.error e := rfl
@[simp] theorem py_pure {α : Type} (a : α) : (pure a : Py α) = Except.ok a := rfl

theorem raiseIf_pos {c : Prop} [Decidable c] {e : PyErr} (h : c) : raiseIf c e = .error e := if_pos h
theorem raiseIf_neg {c : Prop} [Decidable c] {e : PyErr} (h : ¬ c) : raiseIf c e = .ok () := if_neg h

@[simp] theorem raiseIf_true {e : PyErr} : raiseIf True e = .error e := rfl
@[simp] theorem raiseIf_false {e : PyErr} : raiseIf False e = .ok () := rfl

@[simp] theorem raiseIf_eq_ok {c : Prop} [Decidable c] {e : PyErr} {u : Unit} : raiseIf c e = .ok u ↔ ¬ c := by
  unfold raiseIf; split <;> simp_all

@[simp] theorem raiseIf_eq_error {c : Prop} [Decidable c] {e e' : PyErr} :
    raiseIf c e = .error e' ↔ c ∧ e = e' := by
  unfold raiseIf; split <;> simp_all

/-- a sequence of two Python statements returns iff both do -/
theorem py_bind_eq_ok {α β : Type} {x : Py α} {f : α → Py β} {b : β} :
    (x >>= f) = .ok b ↔ ∃ a, x = .ok a ∧ f a = .ok b := by
  cases x <;> simp

theorem py_bind_eq_error {α β : Type} {x : Py α} {f : α → Py β} {e : PyErr} :
    (x >>= f) = .error e ↔ x = .error e ∨ ∃ a, x = .ok a ∧ f a = .error e := by
  cases x <;> simp

theorem raiseIf_bind_eq_ok {β : Type} {c : Prop} [Decidable c] {e : PyErr} {f : Unit → Py β} {b : β} :
    (raiseIf c e >>= f) = .ok b ↔ ¬ c ∧ f () = .ok b := by
  unfold raiseIf; split <;> simp_all

theorem raiseIf_bind_eq_error {β : Type} {c : Prop} [Decidable c] {e e' : PyErr} {f : Unit → Py β} :
    (raiseIf c e >>= f) = .error e' ↔ (c ∧ e = e') ∨ (¬ c ∧ f () = .error e') := by
  unfold raiseIf; split <;> simp_all

theorem foldlM_nil {α σ : Type} (f : σ → α → Py σ) (s : σ) : List.foldlM f s [] = .ok s := rfl
theorem foldlM_cons {α σ : Type} (f : σ → α → Py σ) (s : σ) (a : α) (t : List α) :
    List.foldlM f s (a :: t) = (f s a >>= fun s' => List.foldlM f s' t) := by simp [List.foldlM_cons]

theorem foldlM_append {α σ : Type} (f : σ → α → Py σ) (s : σ) (l₁ l₂ : List α) :
    List.foldlM f s (l₁ ++ l₂) = (List.foldlM f s l₁ >>= fun s' => List.foldlM f s' l₂) := by
  simp [List.foldlM_append]

/-- an invariant proof of a loop over `range(n)` that never raises -/
theorem foldlM_range_ok {σ : Type} (f : σ → Nat → Py σ) (st : Nat → σ) (n : Nat)
    (h : ∀ k, k < n → f (st k) k = .ok (st (k + 1))) : List.foldlM f (st 0) (List.range n) = .ok (st n) := by
  induction n with
  | zero => simp
  | succ m ih =>
    rw [List.range_succ, foldlM_append, ih (fun k hk => h k (by omega))]
    simp [h m (by omega)]

/-- invariant of a loop -/
theorem foldlM_invariant {α σ : Type} (f : σ → α → Py σ) (P : σ → Prop) (l : List α)
    (h : ∀ s a s', a ∈ l → P s → f s a = .ok s' → P s') {s s' : σ} (hs : P s)
    (hr : List.foldlM f s l = .ok s') : P s' := by
  induction l generalizing s with
  | nil => simp at hr; exact hr ▸ hs
  | cons a t ih =>
    rw [foldlM_cons, py_bind_eq_ok] at hr
    obtain ⟨s1, h1, h2⟩ := hr
    exact ih (fun s a s' ha => h s a s' (List.mem_cons_of_mem _ ha)) (h s a s1 List.mem_cons_self hs h1) h2

/-- invariant of a loop over `range(n)`, indexed by the number of passes -/
theorem foldlM_range_inv {σ : Type} (f : σ → Nat → Py σ) (P : Nat → σ → Prop) (n : Nat)
    (h : ∀ k s s', k < n → P k s → f s k = .ok s' → P (k + 1) s') {s s' : σ} (hs : P 0 s)
    (hr : List.foldlM f s (List.range n) = .ok s') : P n s' := by
  induction n generalizing s' with
  | zero => simp at hr; exact hr ▸ hs
  | succ m ih =>
    rw [List.range_succ, foldlM_append, py_bind_eq_ok] at hr
    obtain ⟨s1, h1, h2⟩ := hr
    have := ih (fun k s s' hk => h k s s' (by omega)) h1
    rw [foldlM_cons, py_bind_eq_ok] at h2
    obtain ⟨s2, h2, h3⟩ := h2
    simp at h3
    exact h3 ▸ h m _ _ (by omega) this h2

/-- a loop over `range(n)` whose passes all succeed -/
theorem foldlM_range_progress {σ : Type} (f : σ → Nat → Py σ) (P : Nat → σ → Prop) (n : Nat)
    (h : ∀ k s, k < n → P k s → ∃ s', f s k = .ok s' ∧ P (k + 1) s') {s : σ} (hs : P 0 s) :
    ∃ s', List.foldlM f s (List.range n) = .ok s' ∧ P n s' := by
  induction n with
  | zero => exact ⟨s, rfl, hs⟩
  | succ m ih =>
    obtain ⟨s1, h1, h2⟩ := ih (fun k s hk => h k s (by omega))
    obtain ⟨s2, h3, h4⟩ := h m s1 (by omega) h2
    refine ⟨s2, ?_, h4⟩
    rw [List.range_succ, foldlM_append, h1, py_ok_bind, foldlM_cons, h3, py_ok_bind, foldlM_nil]

/-- a loop over `range(n)` that raises does so in some pass, after passes that succeeded -/
theorem foldlM_range_error {σ : Type} (f : σ → Nat → Py σ) (P : Nat → σ → Prop) (n : Nat)
    (h : ∀ k s s', k < n → P k s → f s k = .ok s' → P (k + 1) s') {s : σ} {e : PyErr} (hs : P 0 s)
    (hr : List.foldlM f s (List.range n) = .error e) : ∃ k s', k < n ∧ P k s' ∧ f s' k = .error e := by
  induction n with
  | zero => simp at hr
  | succ m ih =>
    rw [List.range_succ, foldlM_append, py_bind_eq_error] at hr
    rcases hr with hr | ⟨s1, h1, h2⟩
    · obtain ⟨k, s', hk, hp, hf⟩ := ih (fun k s s' hk => h k s s' (by omega)) hr
      exact ⟨k, s', by omega, hp, hf⟩
    · have := foldlM_range_inv f P m (fun k s s' hk => h k s s' (by omega)) hs h1
      rw [foldlM_cons, py_bind_eq_error] at h2
      rcases h2 with h2 | ⟨s2, _, h2⟩
      · exact ⟨m, s1, by omega, this, h2⟩
      · cases h2

end Sidermit
