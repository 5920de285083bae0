import Verif.Base

namespace Sidermit
namespace Dict

variable {α β : Type} [DecidableEq α]

@[simp] theorem get?_nil (k : α) : get? ([] : Dict α β) k = none := rfl

theorem get?_cons (k' : α) (v : β) (t : Dict α β) (k : α) :
    get? ((k', v) :: t) k = if k' = k then some v else get? t k := rfl

theorem get?_set_self (d : Dict α β) (k : α) (v : β) : (d.set k v).get? k = some v := by
  induction d with
  | nil => simp [set, get?]
  | cons p t ih =>
    obtain ⟨k', v'⟩ := p
    by_cases h : k' = k
    · simp [set, get?, h]
    · simp [set, get?, h, ih]

theorem get?_set_ne (d : Dict α β) {k j : α} (v : β) (h : j ≠ k) : (d.set k v).get? j = d.get? j := by
  induction d with
  | nil => simp [set, get?, Ne.symm h]
  | cons p t ih =>
    obtain ⟨k', v'⟩ := p
    by_cases hk : k' = k
    · subst hk; simp [set, get?, Ne.symm h]
    · by_cases hj : k' = j
      · subst hj; simp [set, get?, hk]
      · simp [set, get?, hk, hj, ih]

theorem get?_set (d : Dict α β) (k j : α) (v : β) :
    (d.set k v).get? j = if j = k then some v else d.get? j := by
  by_cases h : j = k
  · subst h; simp [get?_set_self]
  · simp [h, get?_set_ne]

theorem mem_keys_iff (d : Dict α β) (k : α) : k ∈ keys d ↔ ∃ v, d.get? k = some v := by
  induction d with
  | nil => simp [keys]
  | cons p t ih =>
    obtain ⟨k', v'⟩ := p
    by_cases h : k' = k
    · simp [keys, get?, h]
    · simp only [keys, List.map_cons, List.mem_cons, get?, h, if_false]
      rw [← ih]
      simp [keys, Ne.symm h]

theorem get?_eq_none_iff (d : Dict α β) (k : α) : d.get? k = none ↔ k ∉ keys d := by
  rw [mem_keys_iff]
  cases h : d.get? k <;> simp

theorem keys_set (d : Dict α β) (k : α) (v : β) :
    keys (d.set k v) = if k ∈ keys d then keys d else keys d ++ [k] := by
  induction d with
  | nil => simp [set, keys]
  | cons p t ih =>
    obtain ⟨k', v'⟩ := p
    by_cases h : k' = k
    · simp [set, keys, h]
    · simp only [keys] at ih
      simp only [set, h, if_false, keys, List.map_cons, ih, List.mem_cons]
      have : k ≠ k' := Ne.symm h
      by_cases h2 : k ∈ t.map Prod.fst <;> simp [h2, this]

theorem keys_set_of_mem (d : Dict α β) {k : α} (v : β) (h : k ∈ keys d) : keys (d.set k v) = keys d := by
  rw [keys_set, if_pos h]

theorem nodup_keys_set (d : Dict α β) (k : α) (v : β) (h : (keys d).Nodup) : (keys (d.set k v)).Nodup := by
  rw [keys_set]
  split
  · exact h
  · rename_i hk
    refine List.nodup_append.2 ⟨h, by simp, ?_⟩
    intro a ha b hb
    simp at hb
    subst hb
    exact fun e => hk (e ▸ ha)

theorem mem_of_get? (d : Dict α β) {k : α} {v : β} (h : d.get? k = some v) : (k, v) ∈ d := by
  induction d with
  | nil => simp at h
  | cons p t ih =>
    obtain ⟨k', v'⟩ := p
    by_cases hk : k' = k
    · simp [get?, hk] at h; subst hk; subst h; simp
    · simp [get?, hk] at h; exact List.mem_cons_of_mem _ (ih h)

theorem get?_of_mem (d : Dict α β) (hn : (keys d).Nodup) {k : α} {v : β} (h : (k, v) ∈ d) :
    d.get? k = some v := by
  induction d with
  | nil => simp at h
  | cons p t ih =>
    obtain ⟨k', v'⟩ := p
    have hn' : (keys t).Nodup := by simp [keys] at hn ⊢; exact hn.2
    rcases List.mem_cons.1 h with h1 | h1
    · cases h1; simp [get?]
    · have hk : k' ≠ k := by
        intro e
        subst e
        simp only [keys, List.map_cons, List.nodup_cons] at hn
        exact hn.1 (List.mem_map.2 ⟨(k', v), h1, rfl⟩)
      simp [get?, hk, ih hn' h1]

end Dict

theorem lookup2_setCell {α β γ : Type} [DecidableEq α] [DecidableEq β] (d : Dict α (Dict β γ)) (a a' : α) (b b' : β)
    (v : γ) : lookup2 (setCell d a b v) a' b' =
      if a' = a ∧ b' = b then some v else lookup2 d a' b' := by
  unfold lookup2 setCell
  rw [Dict.get?_set]
  by_cases ha : a' = a
  · subst ha
    simp only [if_true, Option.bind_some, Dict.get?_set, true_and]
    by_cases hb : b' = b
    · simp [hb]
    · simp only [hb, if_false, Dict.getD]
      cases d.get? a' <;> simp
  · simp [ha]

end Sidermit
