import Verif.Proofs.PyLemmas
import Verif.Proofs.Dict

/-!
Two computations that go the same way.
-/

namespace Sidermit

/-- both raise the same exception, or both return, with related values -/
inductive PyRel {α β : Type} (R : α → β → Prop) : Py α → Py β → Prop
  | error (e : PyErr) : PyRel R (.error e) (.error e)
  | ok {a : α} {b : β} : R a b → PyRel R (.ok a) (.ok b)

namespace PyRel

variable {α β γ δ σ τ : Type} {R : α → β → Prop} {S : γ → δ → Prop}

theorem bind {x : Py α} {y : Py β} {k : α → Py γ} {k' : β → Py δ} (h : PyRel R x y)
    (hk : ∀ a b, R a b → PyRel S (k a) (k' b)) : PyRel S (x >>= k) (y >>= k') := by
  cases h with
  | error e => exact .error e
  | ok h => exact hk _ _ h

theorem mono {R' : α → β → Prop} {x : Py α} {y : Py β} (h : PyRel R x y) (hi : ∀ a b, R a b → R' a b) : PyRel R' x y := by
  cases h with
  | error e => exact .error e
  | ok h => exact .ok (hi _ _ h)

theorem of_map {φ : α → β} {x : Py α} {y : Py β} (h : y = x.map φ) : PyRel (fun a b => b = φ a) x y := by
  subst h
  cases x with
  | error e => exact .error e
  | ok a => exact .ok rfl

theorem to_map {φ : α → β} {x : Py α} {y : Py β} (h : PyRel (fun a b => b = φ a) x y) : y = x.map φ := by
  cases h with
  | error e => rfl
  | ok h => rw [h]; rfl

theorem to_eq {x y : Py α} (h : PyRel (fun a b => b = a) x y) : y = x := by
  cases h with
  | error e => rfl
  | ok h => rw [h]

theorem refl (x : Py α) : PyRel (fun a b => b = a) x x := by
  cases x with
  | error e => exact .error e
  | ok a => exact .ok rfl

theorem of_eq {x y : Py α} (h : y = x) : PyRel (fun a b => b = a) x y := h ▸ refl x

theorem ok_left {x : Py α} {y : Py β} (h : PyRel R x y) {a : α} (hx : x = .ok a) : ∃ b, y = .ok b ∧ R a b := by
  subst hx
  cases h with
  | ok h => exact ⟨_, rfl, h⟩

theorem ok_right {x : Py α} {y : Py β} (h : PyRel R x y) {b : β} (hy : y = .ok b) : ∃ a, x = .ok a ∧ R a b := by
  subst hy
  cases h with
  | ok h => exact ⟨_, rfl, h⟩

theorem error_iff {x : Py α} {y : Py β} (h : PyRel R x y) (e : PyErr) : y = .error e ↔ x = .error e := by
  cases h with
  | error e' => exact ⟨fun h => by cases h; rfl, fun h => by cases h; rfl⟩
  | ok h => constructor <;> intro h <;> cases h

theorem foldlM {Q : α → β → Prop} {T : σ → τ → Prop} {f : σ → α → Py σ} {f' : τ → β → Py τ}
    (h : ∀ s s' a b, T s s' → Q a b → PyRel T (f s a) (f' s' b)) {l : List α} {l' : List β} (hl : List.Forall₂ Q l l') :
    ∀ {s : σ} {s' : τ}, T s s' → PyRel T (l.foldlM f s) (l'.foldlM f' s') := by
  induction hl with
  | nil => intro s s' hs; exact .ok hs
  | cons hq _ ih =>
    intro s s' hs
    rw [foldlM_cons, foldlM_cons]
    exact (h _ _ _ _ hs hq).bind fun _ _ hr => ih hr

theorem mapM {Q : α → β → Prop} {f : α → Py γ} {f' : β → Py δ} (h : ∀ a b, Q a b → PyRel S (f a) (f' b)) {l : List α}
    {l' : List β} (hl : List.Forall₂ Q l l') : PyRel (List.Forall₂ S) (l.mapM f) (l'.mapM f') := by
  induction hl with
  | nil => exact .ok .nil
  | cons hq _ ih =>
    rw [List.mapM_cons, List.mapM_cons]
    exact (h _ _ hq).bind fun _ _ hr => ih.bind fun _ _ hrs => .ok (.cons hr hrs)

theorem forM {Q : α → β → Prop} {f : α → Py Unit} {f' : β → Py Unit} (h : ∀ a b, Q a b → PyRel (fun _ _ => True) (f a) (f' b))
    {l : List α} {l' : List β} (hl : List.Forall₂ Q l l') : PyRel (fun _ _ => True) (l.forM f) (l'.forM f') := by
  induction hl with
  | nil => exact .ok trivial
  | cons hq _ ih =>
    show PyRel _ (f _ >>= fun _ => List.forM _ f) (f' _ >>= fun _ => List.forM _ f')
    exact (h _ _ hq).bind fun _ _ _ => ih

theorem raiseIf {c c' : Prop} [Decidable c] [Decidable c'] (h : c' ↔ c) (e : PyErr) :
    PyRel (fun _ _ => True) (Sidermit.raiseIf c e) (Sidermit.raiseIf c' e) := by
  unfold Sidermit.raiseIf
  by_cases hc : c
  · rw [if_pos hc, if_pos (h.2 hc)]; exact .error e
  · rw [if_neg hc, if_neg (fun h' => hc (h.1 h'))]; exact .ok trivial

end PyRel

theorem forall₂_image {α β : Type} (φ : α → β) (l : List α) : List.Forall₂ (fun a b => b = φ a) l (l.map φ) := by
  induction l with
  | nil => exact .nil
  | cons a t ih => exact .cons rfl ih

theorem eq_of_forall₂_image {α β : Type} {φ : α → β} {l : List α} {l' : List β} (h : List.Forall₂ (fun a b => b = φ a) l l') :
    l' = l.map φ := by
  induction h with
  | nil => rfl
  | cons h _ ih => rw [h, ih]; rfl

theorem foldl_image {α β σ τ : Type} {f : σ → α → σ} {f' : τ → β → τ} {φ : σ → τ} {ψ : α → β}
    (h : ∀ s a, f' (φ s) (ψ a) = φ (f s a)) : ∀ (l : List α) (s : σ), (l.map ψ).foldl f' (φ s) = φ (l.foldl f s) := by
  intro l
  induction l with
  | nil => intro s; rfl
  | cons a t ih => intro s; rw [List.map_cons, List.foldl_cons, List.foldl_cons, h, ih]

theorem find?_image {α β : Type} {ψ : α → β} {p : α → Bool} {p' : β → Bool} (h : ∀ a, p' (ψ a) = p a) :
    ∀ l : List α, (l.map ψ).find? p' = (l.find? p).map ψ := by
  intro l
  induction l with
  | nil => rfl
  | cons a t ih =>
    rw [List.map_cons, List.find?_cons, List.find?_cons, h]
    cases p a with
    | true => rfl
    | false => exact ih

/-! ### tables with other keys -/

/-- a table with other keys and values -/
def Dict.via {α β γ δ : Type} (φ : α → γ) (ψ : β → δ) (d : Dict α β) : Dict γ δ := d.map fun p => (φ p.1, ψ p.2)

section Tables

variable {α β γ δ : Type} {φ : α → γ} {ψ : β → δ}

theorem Dict.keys_via (d : Dict α β) : Dict.keys (Dict.via φ ψ d) = (Dict.keys d).map φ := by
  simp [Dict.keys, Dict.via]

variable [DecidableEq α] [DecidableEq γ] (hφ : Function.Injective φ)
include hφ

theorem Dict.get?_via (d : Dict α β) (k : α) : (Dict.via φ ψ d).get? (φ k) = (d.get? k).map ψ := by
  induction d with
  | nil => rfl
  | cons p t ih =>
    obtain ⟨k', y⟩ := p
    show Dict.get? ((φ k', ψ y) :: Dict.via φ ψ t) (φ k) = _
    rw [Dict.get?_cons, Dict.get?_cons, ih]
    by_cases h : k' = k
    · rw [if_pos h, if_pos (by rw [h])]; rfl
    · rw [if_neg h, if_neg (fun h' => h (hφ h'))]

theorem Dict.getD_via (d : Dict α β) (k : α) (x : β) : (Dict.via φ ψ d).getD (φ k) (ψ x) = ψ (d.getD k x) := by
  unfold Dict.getD
  rw [Dict.get?_via hφ]
  cases d.get? k <;> rfl

theorem Dict.set_via (d : Dict α β) (k : α) (x : β) : (Dict.via φ ψ d).set (φ k) (ψ x) = Dict.via φ ψ (d.set k x) := by
  induction d with
  | nil => rfl
  | cons p t ih =>
    obtain ⟨k', y⟩ := p
    show Dict.set ((φ k', ψ y) :: Dict.via φ ψ t) (φ k) (ψ x) = Dict.via φ ψ (Dict.set ((k', y) :: t) k x)
    simp only [Dict.set]
    by_cases h : k' = k
    · rw [if_pos h, if_pos (by rw [h])]; rfl
    · rw [if_neg h, if_neg (fun h' => h (hφ h')), ih]; rfl

end Tables

end Sidermit
