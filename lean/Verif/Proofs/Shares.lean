import Verif.Spec.Assignment
import Verif.Proofs.ExtEdges
import Mathlib.Tactic.Linarith
import Mathlib.Tactic.Ring
import Mathlib.Tactic.FieldSimp
import Mathlib.Tactic.Positivity

/-!
Lemmas on the distribution of trips over two stops.
-/

set_option linter.unusedSectionVars false

namespace Sidermit

variable {K : Type} [Field K] [LinearOrder K] [IsStrictOrderedRing K]

/-- the positions looked at -/
def loopPos (zone : K) (k : Nat) : K := ((k : K) + 1 / 2) * zone

theorem positionLoop_spec (zone d : K) : ∀ (n i : Nat) (pos : K), (i = 0 ∨ pos = loopPos zone i - zone) →
    (∃ k, i ≤ k ∧ k < i + n ∧ positionLoop zone d n i pos = (loopPos zone k, true) ∧ d < loopPos zone k ∧
      ∀ j, i ≤ j → j < k → loopPos zone j ≤ d) ∨
    (positionLoop zone d n i pos = (if n = 0 then pos else loopPos zone (i + n) - zone, false) ∧
      ∀ j, i ≤ j → j < i + n → loopPos zone j ≤ d)
  | 0, i, pos, _ => Or.inr ⟨rfl, fun j h1 h2 => by omega⟩
  | n + 1, i, pos, h => by
    have hpos : (if i = 0 then zone / 2 else pos + zone) = loopPos zone i := by
      split
      · next hi => subst hi; unfold loopPos; simp; ring
      · next hi =>
        rcases h with h | h
        · exact absurd h hi
        · rw [h]; ring
    unfold positionLoop
    simp only [hpos]
    by_cases hd : loopPos zone i > d
    · rw [if_pos hd]
      exact Or.inl ⟨i, le_refl _, by omega, rfl, hd, fun j h1 h2 => by omega⟩
    · rw [if_neg hd]
      have hnext : loopPos zone i = loopPos zone (i + 1) - zone := by unfold loopPos; push_cast; ring
      rcases positionLoop_spec zone d n (i + 1) (loopPos zone i) (Or.inr hnext) with ⟨k, h1, h2, h3, h4, h5⟩ | ⟨h1, h2⟩
      · refine Or.inl ⟨k, by omega, by omega, h3, h4, ?_⟩
        intro j hj1 hj2
        rcases Nat.lt_or_ge i j with hij | hij
        · exact h5 j hij hj2
        · rw [show j = i by omega]
          exact not_lt.1 hd
      · refine Or.inr ⟨?_, ?_⟩
        · rw [h1, if_neg (Nat.succ_ne_zero n)]
          congr 1
          split
          · next hn => subst hn; exact hnext
          · congr 2; omega
        · intro j hj1 hj2
          rcases Nat.lt_or_ge i j with hij | hij
          · exact h2 j hij (by omega)
          · rw [show j = i by omega]
            exact not_lt.1 hd

variable {s1 s2 : StopNode K} {l1 l2 p vp spa spv : K}

/-- a share and the rest -/
def two (s1 s2 : StopNode K) (q : K) : Dict (StopNode K) K := Dict.set (Dict.set [] s1 q) s2 (100 - q)

theorem pyDiv_ok {a b : K} (h : b ≠ 0) : pyDiv a b = .ok (a / b) := (pyDiv_eq_ok).2 ⟨h, rfl⟩

theorem indifference_nonneg (hvp : 0 ≤ vp) (hspa : 0 < spa) (hspv : 0 < spv) (h : l1 ≤ l2) :
    0 ≤ indifference vp spa spv l1 l2 :=
  div_nonneg (mul_nonneg hvp (sub_nonneg.2 h)) (div_pos hspa hspv).le

theorem indifference_neg (hvp : 0 ≤ vp) (hspa : 0 < spa) (hspv : 0 < spv) (h : l2 ≤ l1) :
    indifference vp spa spv l1 l2 ≤ 0 := by
  unfold indifference
  refine div_nonpos_of_nonpos_of_nonneg ?_ (div_pos hspa hspv).le
  exact mul_nonpos_of_nonneg_of_nonpos hvp (sub_nonpos.2 h)

/-- the outcomes when the stop with one line has the smaller label -/
theorem sharesFirst_cases (hvp : 0 ≤ vp) (hspa : 0 < spa) (hspv : 0 < spv) (hp : 0 < p) (hD : 1 ≤ s2.mode.d) (hl : l1 ≤ l2) :
    ∃ a, sharesFirst s1 s2 l1 l2 p vp spa spv = .ok a ∧
    ((p / 2 ≤ indifference vp spa spv l1 l2 ∧ a = [(s1, 100)]) ∨
     (indifference vp spa spv l1 l2 < p / 2 ∧ (∃ k, k < (s2.mode.d / 2).toNat ∧
        indifference vp spa spv l1 l2 < loopPos (p / (s2.mode.d : K)) k ∧
        (∀ j, j < k → loopPos (p / (s2.mode.d : K)) j ≤ indifference vp spa spv l1 l2) ∧
        a = two s1 s2 ((indifference vp spa spv l1 l2 + loopPos (p / (s2.mode.d : K)) k) / p * 100))) ∨
     (indifference vp spa spv l1 l2 < p / 2 ∧
        (∀ j, j < (s2.mode.d / 2).toNat → loopPos (p / (s2.mode.d : K)) j ≤ indifference vp spa spv l1 l2) ∧
        ((lastLine p s2.mode.d < indifference vp spa spv l1 l2 ∧ a = [(s1, 100)]) ∨
         (lastLine p s2.mode.d = indifference vp spa spv l1 l2 ∧ a = [])))) := by
  have hr : spa / spv ≠ 0 := (div_pos hspa hspv).ne'
  have hDK : (0 : K) < (s2.mode.d : K) := by exact_mod_cast hD
  have h0 := indifference_nonneg (l1 := l1) (l2 := l2) hvp hspa hspv hl
  unfold sharesFirst
  rw [pyDiv_ok hspv.ne', py_ok_bind, pyDiv_ok hr, py_ok_bind]
  change ∃ a, (if indifference vp spa spv l1 l2 ≥ p / 2 then _ else (do
    let zone ← pyDiv p (s2.mode.d : K)
    sharesAfterLoop s1 s2 p (indifference vp spa spv l1 l2)
      (positionLoop zone (indifference vp spa spv l1 l2) (s2.mode.d / 2).toNat 0 0))) = _ ∧ _
  set δ := indifference vp spa spv l1 l2 with hδ
  by_cases hb : δ ≥ p / 2
  · rw [if_pos hb]
    exact ⟨_, rfl, Or.inl ⟨hb, rfl⟩⟩
  · rw [if_neg hb, pyDiv_ok hDK.ne', py_ok_bind]
    rw [ge_iff_le, not_le] at hb
    set z := p / (s2.mode.d : K) with hz
    rcases positionLoop_spec z δ (s2.mode.d / 2).toNat 0 0 (Or.inl rfl) with ⟨k, _, h2, h3, h4, h5⟩ | ⟨h1, h2⟩
    · rw [h3]
      refine ⟨_, ?_, Or.inr (Or.inl ⟨hb, k, by omega, h4, fun j hj => h5 j (Nat.zero_le _) hj, rfl⟩)⟩
      unfold sharesAfterLoop two
      simp only [if_true]
      rw [pyDiv_ok hp.ne', py_ok_bind]
      simp only [pure_bind]
      rw [if_neg (not_lt.2 h4.le)]
      have : 2 * δ + (loopPos z k - δ) = δ + loopPos z k := by ring
      rw [this]
    · rw [h1]
      have hlast : (if (s2.mode.d / 2).toNat = 0 then 0 else loopPos z (0 + (s2.mode.d / 2).toNat) - z) = lastLine p s2.mode.d := by
        unfold lastLine
        by_cases hd2 : s2.mode.d < 2
        · rw [if_pos hd2, if_pos (by omega)]
        · rw [if_neg hd2, if_neg (by omega)]
          have : (((s2.mode.d / 2).toNat : ℕ) : K) = ((s2.mode.d / 2 : Int) : K) := by
            have h : (((s2.mode.d / 2).toNat : ℕ) : Int) = s2.mode.d / 2 := Int.toNat_of_nonneg (by omega)
            rw [← h]
            push_cast
            rfl
          unfold loopPos
          rw [Nat.zero_add, this, ← hz]
          ring
      rw [hlast]
      have hle : lastLine p s2.mode.d ≤ δ := by
        rw [← hlast]
        split
        · exact h0
        · next hn =>
          have := h2 ((s2.mode.d / 2).toNat - 1) (Nat.zero_le _) (by omega)
          have hc : (((s2.mode.d / 2).toNat - 1 : ℕ) : K) = ((s2.mode.d / 2).toNat : K) - 1 := by
            rw [Nat.cast_sub (by omega)]
            simp
          unfold loopPos at this ⊢
          rw [hc] at this
          rw [Nat.zero_add]
          linarith
      unfold sharesAfterLoop
      simp only [Bool.false_eq_true, if_false]
      rcases hle.lt_or_eq with hlt | heq
      · refine ⟨[(s1, 100)], ?_, Or.inr (Or.inr ⟨hb, fun j hj => h2 j (Nat.zero_le _) (by omega), Or.inl ⟨hlt, rfl⟩⟩)⟩
        simp only [py_ok_bind, if_pos hlt]
        rfl
      · refine ⟨[], ?_, Or.inr (Or.inr ⟨hb, fun j hj => h2 j (Nat.zero_le _) (by omega), Or.inr ⟨heq, rfl⟩⟩)⟩
        simp only [py_ok_bind]
        rw [if_neg (by rw [heq]; exact lt_irrefl _)]

/-- the outcomes when the other stop has the smaller label and an even number of lines -/
theorem sharesSecond_cases (hspa : 0 < spa) (hspv : 0 < spv) (hp : 0 < p) (hD : 1 ≤ s2.mode.d) :
    ∃ a, sharesSecond s1 s2 l1 l2 p vp spa spv = .ok a ∧
    ((loopPos (p / (s2.mode.d : K)) 0 ≤ -indifference vp spa spv l1 l2 ∧ a = [(s2, 100)]) ∨
     (-indifference vp spa spv l1 l2 < loopPos (p / (s2.mode.d : K)) 0 ∧
        a = two s1 s2 ((indifference vp spa spv l1 l2 + loopPos (p / (s2.mode.d : K)) 0) / p * 100))) := by
  have hr : spa / spv ≠ 0 := (div_pos hspa hspv).ne'
  have hDK : (0 : K) < (s2.mode.d : K) := by exact_mod_cast hD
  have hneg : vp * (l1 - l2) / (spa / spv) = -indifference vp spa spv l1 l2 := by
    unfold indifference
    ring
  have hpos : p / (s2.mode.d : K) * (1 / 2) = loopPos (p / (s2.mode.d : K)) 0 := by
    unfold loopPos
    push_cast
    ring
  unfold sharesSecond
  rw [pyDiv_ok hspv.ne', py_ok_bind, pyDiv_ok hr, py_ok_bind, pyDiv_ok hDK.ne', py_ok_bind, hneg]
  simp only [hpos]
  set δ := indifference vp spa spv l1 l2 with hδ
  by_cases hb : -δ ≥ loopPos (p / (s2.mode.d : K)) 0
  · rw [if_pos hb]
    exact ⟨_, rfl, Or.inl ⟨hb, rfl⟩⟩
  · rw [if_neg hb, pyDiv_ok hp.ne', py_ok_bind]
    refine ⟨_, ?_, Or.inr ⟨not_le.1 hb, rfl⟩⟩
    unfold two
    have : loopPos (p / (s2.mode.d : K)) 0 - -δ = δ + loopPos (p / (s2.mode.d : K)) 0 := by ring
    rw [this]
    rfl

theorem two_getD (h : s1 ≠ s2) (q : K) : (two s1 s2 q).getD s1 0 = q ∧ (two s1 s2 q).getD s2 0 = 100 - q := by
  unfold two Dict.getD
  refine ⟨?_, ?_⟩
  · rw [Dict.get?_set_ne _ _ h, Dict.get?_set_self]
    rfl
  · rw [Dict.get?_set_self]
    rfl

/-- all the outcomes for two stops -/
theorem sharesTwo_cases (hvp : 0 ≤ vp) (hspa : 0 < spa) (hspv : 0 < spv) (hp : 0 < p) (hD : 1 ≤ s2.mode.d) :
    ∃ a, sharesTwo s1 s2 (l1 : WithTop K) (l2 : WithTop K) p vp spa spv = .ok a ∧
    ((l1 ≤ l2 ∧ (p / 2 ≤ indifference vp spa spv l1 l2 ∧ a = [(s1, 100)])) ∨
     (l1 ≤ l2 ∧ indifference vp spa spv l1 l2 < p / 2 ∧ (∃ k, k < (s2.mode.d / 2).toNat ∧
        indifference vp spa spv l1 l2 < loopPos (p / (s2.mode.d : K)) k ∧
        (∀ j, j < k → loopPos (p / (s2.mode.d : K)) j ≤ indifference vp spa spv l1 l2) ∧
        a = two s1 s2 ((indifference vp spa spv l1 l2 + loopPos (p / (s2.mode.d : K)) k) / p * 100))) ∨
     (l1 ≤ l2 ∧ indifference vp spa spv l1 l2 < p / 2 ∧
        (∀ j, j < (s2.mode.d / 2).toNat → loopPos (p / (s2.mode.d : K)) j ≤ indifference vp spa spv l1 l2) ∧
        lastLine p s2.mode.d < indifference vp spa spv l1 l2 ∧ a = [(s1, 100)]) ∨
     (Tie p vp spa spv s2.mode.d l1 l2 ∧ a = []) ∨
     (l2 < l1 ∧ s2.mode.d % 2 = 1 ∧ a = [(s2, 100)]) ∨
     (l2 < l1 ∧ s2.mode.d % 2 = 0 ∧ loopPos (p / (s2.mode.d : K)) 0 ≤ -indifference vp spa spv l1 l2 ∧ a = [(s2, 100)]) ∨
     (l2 < l1 ∧ s2.mode.d % 2 = 0 ∧ -indifference vp spa spv l1 l2 < loopPos (p / (s2.mode.d : K)) 0 ∧
        a = two s1 s2 ((indifference vp spa spv l1 l2 + loopPos (p / (s2.mode.d : K)) 0) / p * 100))) := by
  unfold sharesTwo
  simp only
  by_cases hl : l1 ≤ l2
  · rw [if_pos hl]
    obtain ⟨a, ha, h⟩ := sharesFirst_cases (s1 := s1) hvp hspa hspv hp hD hl
    refine ⟨a, ha, ?_⟩
    rcases h with ⟨h1, h2⟩ | ⟨h1, h2⟩ | ⟨h1, h2, ⟨h3, h4⟩ | ⟨h3, h4⟩⟩
    · exact Or.inl ⟨hl, h1, h2⟩
    · exact Or.inr (Or.inl ⟨hl, h1, h2⟩)
    · exact Or.inr (Or.inr (Or.inl ⟨hl, h1, h2, h3, h4⟩))
    · exact Or.inr (Or.inr (Or.inr (Or.inl ⟨⟨hl, h3.symm⟩, h4⟩)))
  · rw [if_neg hl]
    rw [not_le] at hl
    by_cases hodd : s2.mode.d % 2 = 1
    · rw [if_pos hodd]
      exact ⟨_, rfl, Or.inr (Or.inr (Or.inr (Or.inr (Or.inl ⟨hl, hodd, rfl⟩))))⟩
    · rw [if_neg hodd]
      obtain ⟨a, ha, h⟩ := sharesSecond_cases (s1 := s1) (s2 := s2) (l1 := l1) (l2 := l2) (vp := vp) hspa hspv hp hD
      refine ⟨a, ha, ?_⟩
      have he : s2.mode.d % 2 = 0 := by omega
      rcases h with ⟨h1, h2⟩ | ⟨h1, h2⟩
      · exact Or.inr (Or.inr (Or.inr (Or.inr (Or.inr (Or.inl ⟨hl, he, h1, h2⟩)))))
      · exact Or.inr (Or.inr (Or.inr (Or.inr (Or.inr (Or.inr ⟨hl, he, h1, h2⟩)))))

/-- the positions looked at are in the half street -/
theorem loopPos_le {D : Int} (hp : 0 < p) {k : Nat} (hk : k < (D / 2).toNat) :
    0 < loopPos (p / (D : K)) k ∧ loopPos (p / (D : K)) k < p / 2 := by
  have hD : (0 : K) < (D : K) := by
    have : 0 < D := by omega
    exact_mod_cast this
  have hk' : (2 * (k : K) + 1) < (D : K) := by
    have : 2 * (k : Int) + 1 < D := by omega
    exact_mod_cast this
  unfold loopPos
  refine ⟨by positivity, ?_⟩
  rw [← sub_pos]
  have : p / 2 - ((k : K) + 1 / 2) * (p / (D : K)) = p / (2 * (D : K)) * ((D : K) - (2 * (k : K) + 1)) := by
    field_simp
  rw [this]
  exact mul_pos (by positivity) (sub_pos.2 hk')

/-- comparing the two stops is comparing the walks -/
theorem cost_le (hvp : 0 < vp) (hspa : 0 < spa) (hspv : 0 < spv) (y o : K) :
    (costFrom vp spa spv l1 y 0 ≤ costFrom vp spa spv l2 y o ↔ |y| - |y - o| ≤ indifference vp spa spv l1 l2) ∧
    (costFrom vp spa spv l2 y o ≤ costFrom vp spa spv l1 y 0 ↔ indifference vp spa spv l1 l2 ≤ |y| - |y - o|) := by
  have hr : 0 < spa / spv := div_pos hspa hspv
  unfold costFrom indifference
  rw [sub_zero, le_div_iff₀ hr, div_le_iff₀ hr]
  have e : ∀ a b : K, (l1 + spa / spv * (a / vp)) - (l2 + spa / spv * (b / vp)) =
      ((a - b) * (spa / spv) - vp * (l2 - l1)) / vp := by
    intro a b
    field_simp
    ring
  refine ⟨?_, ?_⟩
  · rw [← sub_nonpos, e, div_le_iff₀ hvp, zero_mul, sub_nonpos]
  · rw [← sub_nonneg, e, le_div_iff₀ hvp, zero_mul, sub_nonneg]

/-- an even number of lines: half of them on each side -/
theorem even_positions {D : Int} (he : D % 2 = 0) :
    (∀ i, i < D.toNat → ∃ k, k < (D / 2).toNat ∧
      (linePosition p D i = loopPos (p / (D : K)) k ∨ linePosition p D i = -loopPos (p / (D : K)) k)) ∧
    (∀ k, k < (D / 2).toNat → (∃ i, i < D.toNat ∧ linePosition p D i = loopPos (p / (D : K)) k) ∧
      ∃ i, i < D.toNat ∧ linePosition p D i = -loopPos (p / (D : K)) k) := by
  have hright : ∀ k : Nat, k < (D / 2).toNat → linePosition p D ((D / 2).toNat + k) = loopPos (p / (D : K)) k := by
    intro k hk
    unfold linePosition loopPos
    have hD : (D : K) = 2 * (((D / 2).toNat : ℕ) : K) := by
      have : D = 2 * (((D / 2).toNat : ℕ) : Int) := by omega
      calc (D : K) = ((2 * (((D / 2).toNat : ℕ) : Int) : Int) : K) := by rw [← this]
        _ = _ := by push_cast; rfl
    congr 1
    rw [hD]
    push_cast
    ring
  have hleft : ∀ k : Nat, k < (D / 2).toNat → linePosition p D ((D / 2).toNat - 1 - k) = -loopPos (p / (D : K)) k := by
    intro k hk
    unfold linePosition loopPos
    have hD : (D : K) = 2 * (((D / 2).toNat : ℕ) : K) := by
      have : D = 2 * (((D / 2).toNat : ℕ) : Int) := by omega
      calc (D : K) = ((2 * (((D / 2).toNat : ℕ) : Int) : Int) : K) := by rw [← this]
        _ = _ := by push_cast; rfl
    have hc : (((D / 2).toNat - 1 - k : ℕ) : K) = ((D / 2).toNat : K) - 1 - (k : K) := by
      rw [Nat.cast_sub (by omega), Nat.cast_sub (by omega)]
      simp
    rw [← neg_mul]
    congr 1
    rw [hc, hD]
    ring
  refine ⟨?_, ?_⟩
  · intro i hi
    rcases Nat.lt_or_ge i (D / 2).toNat with h | h
    · refine ⟨(D / 2).toNat - 1 - i, by omega, Or.inr ?_⟩
      rw [← hleft _ (by omega)]
      congr 1
      omega
    · refine ⟨i - (D / 2).toNat, by omega, Or.inl ?_⟩
      rw [← hright _ (by omega)]
      congr 1
      omega
  · intro k hk
    exact ⟨⟨_, by omega, hright k hk⟩, ⟨_, by omega, hleft k hk⟩⟩

/-- an odd number of lines: one in the middle -/
theorem odd_position {D : Int} (hD : 1 ≤ D) (ho : D % 2 = 1) : ∃ i, i < D.toNat ∧ linePosition p D i = (0 : K) := by
  refine ⟨(D / 2).toNat, by omega, ?_⟩
  unfold linePosition
  have hD : (D : K) = 2 * (((D / 2).toNat : ℕ) : K) + 1 := by
    have : D = 2 * (((D / 2).toNat : ℕ) : Int) + 1 := by omega
    calc (D : K) = ((2 * (((D / 2).toNat : ℕ) : Int) + 1 : Int) : K) := by rw [← this]
      _ = _ := by push_cast; rfl
  have : (2 * (((D / 2).toNat : ℕ) : K) + 1) - (D : K) = 0 := by rw [hD]; ring
  rw [this]
  simp

theorem abs_bounds (y o : K) : |y| - |y - o| ≤ |o| ∧ |y| - |y - o| ≤ |y| + |y| - |o| ∧ |y| - |y - o| ≤ |y| := by
  have h1 := abs_sub_abs_le_abs_sub y (y - o)
  have h2 := abs_sub_abs_le_abs_sub o y
  rw [sub_sub_cancel] at h1
  rw [abs_sub_comm o y] at h2
  have h3 := abs_nonneg (y - o)
  refine ⟨h1, by linarith, by linarith⟩

/-- the half width of the area of the stop in the middle, when the first line of the other stop that counts is at `P` -/
theorem half_width {D : Int} (he : D % 2 = 0) (hp : 0 < p) {k : Nat} (hk : k < (D / 2).toNat) {δ : K}
    (hδ : δ < loopPos (p / (D : K)) k) (hj : ∀ j, j < k → loopPos (p / (D : K)) j ≤ δ) (y : K) :
    (|y| < (δ + loopPos (p / (D : K)) k) / 2 → ∀ i, i < D.toNat → |y| - |y - linePosition p D i| ≤ δ) ∧
    ((δ + loopPos (p / (D : K)) k) / 2 < |y| → ∃ i, i < D.toNat ∧ δ ≤ |y| - |y - linePosition p D i|) := by
  obtain ⟨h1, h2⟩ := even_positions (p := p) he
  have hpos : ∀ m, m < (D / 2).toNat → 0 < loopPos (p / (D : K)) m := fun m hm => (loopPos_le hp hm).1
  have hz : 0 < p / (D : K) := by
    have := hpos 0 (by omega)
    unfold loopPos at this
    push_cast at this
    linarith
  refine ⟨?_, ?_⟩
  · intro hy i hi
    obtain ⟨m, hm, hmi⟩ := h1 i hi
    have habs : |linePosition p D i| = loopPos (p / (D : K)) m := by
      rcases hmi with h | h
      · rw [h, abs_of_pos (hpos m hm)]
      · rw [h, abs_neg, abs_of_pos (hpos m hm)]
    obtain ⟨b1, b2, _⟩ := abs_bounds y (linePosition p D i)
    rw [habs] at b1 b2
    rcases Nat.lt_or_ge m k with hmk | hmk
    · exact b1.trans (hj m hmk)
    · have : loopPos (p / (D : K)) k ≤ loopPos (p / (D : K)) m := by
        unfold loopPos
        have : (k : K) ≤ (m : K) := by exact_mod_cast hmk
        exact mul_le_mul_of_nonneg_right (by linarith) hz.le
      linarith
  · intro hy
    have hP := hpos k hk
    have key : ∀ a : K, 0 ≤ a → (δ + loopPos (p / (D : K)) k) / 2 < a → δ ≤ a - |a - loopPos (p / (D : K)) k| := by
      intro a ha h
      rcases le_total a (loopPos (p / (D : K)) k) with h' | h'
      · rw [abs_of_nonpos (by linarith)]
        linarith
      · rw [abs_of_nonneg (by linarith)]
        linarith
    rcases le_total 0 y with h0 | h0
    · obtain ⟨i, hi, hie⟩ := (h2 k hk).1
      refine ⟨i, hi, ?_⟩
      rw [hie]
      rw [abs_of_nonneg h0] at hy ⊢
      exact key y h0 hy
    · obtain ⟨i, hi, hie⟩ := (h2 k hk).2
      refine ⟨i, hi, ?_⟩
      rw [hie]
      rw [abs_of_nonpos h0] at hy ⊢
      have e : |y - -loopPos (p / (D : K)) k| = |-y - loopPos (p / (D : K)) k| := by
        rw [← abs_neg]
        congr 1
        ring
      rw [e]
      exact key (-y) (by linarith) hy

end Sidermit
