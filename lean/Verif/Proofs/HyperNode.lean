import Verif.Model.Hyperpath
import Verif.Spec.Hyperpath
import Verif.Proofs.PyLemmas
import Mathlib.Algebra.Order.BigOperators.Group.List
import Mathlib.Algebra.Order.Monoid.WithTop
import Mathlib.Tactic.Linarith
import Mathlib.Tactic.FieldSimp
import Mathlib.Tactic.Ring

/-!
The state of one node during the hyperpath search.
-/

set_option linter.unusedSectionVars false

namespace Sidermit

variable {K : Type} [Field K] [LinearOrder K] [IsStrictOrderedRing K]

/-- the waiting term of a node -/
def waitAt (pas : Passenger K) : ENode K → K
  | .stop s => waitCost pas s
  | _ => 0

/-- the label at the start -/
def initLabel (dest : Option (CityNode K)) (i : ENode K) : WithTop K := if some i = dest.map .city then 0 else ⊤

/-- `Σ f` of a set of lines -/
def sumF (l : List (EEdge K)) : K := (l.map lineFreq).sum

/-- `Σ f t` of a set of lines -/
def sumFT (T : EEdge K → K) (l : List (EEdge K)) : K := (l.map fun e => lineFreq e * T e).sum

/-- what holds at node `i` after the edges `Q` have been looked at; `T` is the cost of continuing along an edge -/
structure NodeInv (h : HInput K) (Q : List (EEdge K)) (T : EEdge K → K) (i : ENode K) (lab labInf : WithTop K)
    (suc : List (EEdge K)) (sucInf : Option (EEdge K)) (freq : K) : Prop where
  inf_le : ∀ e ∈ Q, e.i = i → e.type ≠ .boarding → labInf ≤ (T e : WithTop K)
  inf_att : (sucInf = none ∧ labInf = initLabel h.dest i) ∨
    ∃ e ∈ Q, e.i = i ∧ e.type ≠ .boarding ∧ sucInf = some e ∧ labInf = (T e : WithTop K)
  inf_init : labInf ≤ initLabel h.dest i
  nodup : suc.Nodup
  line : ∀ b ∈ suc, b ∈ Q ∧ b.i = i ∧ b.type = .boarding ∧ 0 < lineFreq b ∧ (T b : WithTop K) < lab
  freq_eq : freq = sumF suc
  lab_nil : suc = [] → lab = initLabel h.dest i
  lab_eq : suc ≠ [] → lab = (((waitAt h.pas i + sumFT T suc) / sumF suc : K) : WithTop K)
  rest : ∀ e ∈ Q, e.i = i → e.type = .boarding → 0 < lineFreq e → e ∈ suc ∨ lab ≤ (T e : WithTop K)

variable {h : HInput K} {Q : List (EEdge K)} {T T' : EEdge K → K} {i : ENode K} {lab labInf : WithTop K}
  {suc : List (EEdge K)} {sucInf : Option (EEdge K)} {freq : K} {e : EEdge K}

theorem sumF_pos (hl : ∀ b ∈ suc, 0 < lineFreq b) (hne : suc ≠ []) : 0 < sumF suc := by
  unfold sumF
  induction suc with
  | nil => exact absurd rfl hne
  | cons a t ih =>
    rw [List.map_cons, List.sum_cons]
    have ha := hl a List.mem_cons_self
    by_cases ht : t = []
    · subst ht; simpa using ha
    · have := ih (fun b hb => hl b (List.mem_cons_of_mem _ hb)) ht
      linarith

theorem sumF_append (l : List (EEdge K)) (e : EEdge K) : sumF (l ++ [e]) = sumF l + lineFreq e := by
  simp [sumF]

theorem sumFT_append (l : List (EEdge K)) (e : EEdge K) : sumFT T (l ++ [e]) = sumFT T l + lineFreq e * T e := by
  simp [sumFT]

theorem sumFT_congr {l : List (EEdge K)} (h : ∀ e ∈ l, T' e = T e) : sumFT T' l = sumFT T l := by
  unfold sumFT
  congr 1
  apply List.map_congr_left
  intro e he
  rw [h e he]

theorem NodeInv.sumF_pos (hi : NodeInv h Q T i lab labInf suc sucInf freq) (hne : suc ≠ []) : 0 < sumF suc :=
  Sidermit.sumF_pos (fun b hb => (hi.line b hb).2.2.2.1) hne

theorem nodeInv_init (i : ENode K) : NodeInv h [] T i (initLabel h.dest i) (initLabel h.dest i) [] none 0 :=
  { inf_le := by simp, inf_att := Or.inl ⟨rfl, rfl⟩, inf_init := le_refl _, nodup := List.nodup_nil, line := by simp, freq_eq := by simp [sumF]
    lab_nil := fun _ => rfl, lab_eq := fun h => absurd rfl h, rest := by simp }

theorem NodeInv.congr (hi : NodeInv h Q T i lab labInf suc sucInf freq) (hT : ∀ e ∈ Q, T' e = T e) :
    NodeInv h Q T' i lab labInf suc sucInf freq where
  inf_le e he := by rw [hT e he]; exact hi.inf_le e he
  inf_att := by
    rcases hi.inf_att with h | ⟨e, he, h⟩
    · exact Or.inl h
    · exact Or.inr ⟨e, he, by rw [hT e he]; exact h⟩
  inf_init := hi.inf_init
  nodup := hi.nodup
  line b hb := by
    have := hi.line b hb
    rw [hT b this.1]; exact this
  freq_eq := hi.freq_eq
  lab_nil := hi.lab_nil
  lab_eq hne := by
    rw [hi.lab_eq hne, sumFT_congr (fun e he => hT e (hi.line e he).1)]
  rest e he := by rw [hT e he]; exact hi.rest e he

/-- an edge of another node -/
theorem NodeInv.skip (hi : NodeInv h Q T i lab labInf suc sucInf freq) (he : e.i ≠ i) :
    NodeInv h (Q ++ [e]) T i lab labInf suc sucInf freq where
  inf_le x hx hxi := by
    rcases List.mem_append.1 hx with hx | hx
    · exact hi.inf_le x hx hxi
    · rw [List.mem_singleton] at hx; subst hx; exact absurd hxi he
  inf_att := by
    rcases hi.inf_att with h | ⟨e, he, h⟩
    · exact Or.inl h
    · exact Or.inr ⟨e, List.mem_append_left _ he, h⟩
  inf_init := hi.inf_init
  nodup := hi.nodup
  line b hb := ⟨List.mem_append_left _ (hi.line b hb).1, (hi.line b hb).2⟩
  freq_eq := hi.freq_eq
  lab_nil := hi.lab_nil
  lab_eq := hi.lab_eq
  rest x hx hxi := by
    rcases List.mem_append.1 hx with hx | hx
    · exact hi.rest x hx hxi
    · rw [List.mem_singleton] at hx; subst hx; exact absurd hxi he

/-- an edge other than boarding that is no better -/
theorem NodeInv.inf_keep (hi : NodeInv h Q T i lab labInf suc sucInf freq) (hb : e.type ≠ .boarding)
    (hle : labInf ≤ (T e : WithTop K)) :
    NodeInv h (Q ++ [e]) T i lab labInf suc sucInf freq where
  inf_le x hx hxi := by
    rcases List.mem_append.1 hx with hx | hx
    · exact hi.inf_le x hx hxi
    · rw [List.mem_singleton] at hx; subst hx; exact fun _ => hle
  inf_att := by
    rcases hi.inf_att with h | ⟨e, he, h⟩
    · exact Or.inl h
    · exact Or.inr ⟨e, List.mem_append_left _ he, h⟩
  inf_init := hi.inf_init
  nodup := hi.nodup
  line b hb := ⟨List.mem_append_left _ (hi.line b hb).1, (hi.line b hb).2⟩
  freq_eq := hi.freq_eq
  lab_nil := hi.lab_nil
  lab_eq := hi.lab_eq
  rest x hx hxi := by
    rcases List.mem_append.1 hx with hx | hx
    · exact hi.rest x hx hxi
    · rw [List.mem_singleton] at hx; subst hx; exact fun h => absurd h hb

/-- an edge other than boarding that is better -/
theorem NodeInv.inf_update (hi : NodeInv h Q T i lab labInf suc sucInf freq) (hb : e.type ≠ .boarding) (hei : e.i = i)
    (hlt : (T e : WithTop K) < labInf) :
    NodeInv h (Q ++ [e]) T i lab (T e : WithTop K) suc (some e) freq where
  inf_le x hx hxi := by
    rcases List.mem_append.1 hx with hx | hx
    · exact fun hxb => hlt.le.trans (hi.inf_le x hx hxi hxb)
    · rw [List.mem_singleton] at hx; subst hx; exact fun _ => le_refl _
  inf_att := Or.inr ⟨e, by simp, hei, hb, rfl, rfl⟩
  inf_init := hlt.le.trans hi.inf_init
  nodup := hi.nodup
  line b hb := ⟨List.mem_append_left _ (hi.line b hb).1, (hi.line b hb).2⟩
  freq_eq := hi.freq_eq
  lab_nil := hi.lab_nil
  lab_eq := hi.lab_eq
  rest x hx hxi := by
    rcases List.mem_append.1 hx with hx | hx
    · exact hi.rest x hx hxi
    · rw [List.mem_singleton] at hx; subst hx; exact fun h => absurd h hb

/-- a line that does not improve -/
theorem NodeInv.line_keep (hi : NodeInv h Q T i lab labInf suc sucInf freq) (hb : e.type = .boarding)
    (hle : 0 < lineFreq e → lab ≤ (T e : WithTop K)) :
    NodeInv h (Q ++ [e]) T i lab labInf suc sucInf freq where
  inf_le x hx hxi := by
    rcases List.mem_append.1 hx with hx | hx
    · exact hi.inf_le x hx hxi
    · rw [List.mem_singleton] at hx; subst hx; exact fun h => absurd hb h
  inf_att := by
    rcases hi.inf_att with h | ⟨e, he, h⟩
    · exact Or.inl h
    · exact Or.inr ⟨e, List.mem_append_left _ he, h⟩
  inf_init := hi.inf_init
  nodup := hi.nodup
  line b hb := ⟨List.mem_append_left _ (hi.line b hb).1, (hi.line b hb).2⟩
  freq_eq := hi.freq_eq
  lab_nil := hi.lab_nil
  lab_eq := hi.lab_eq
  rest x hx hxi := by
    rcases List.mem_append.1 hx with hx | hx
    · exact hi.rest x hx hxi
    · rw [List.mem_singleton] at hx; subst hx; exact fun _ hf => Or.inr (hle hf)

/-- a line that improves the label: `l` is the new label -/
theorem NodeInv.line_add (hi : NodeInv h Q T i lab labInf suc sucInf freq) (hb : e.type = .boarding) (hei : e.i = i)
    (hf : 0 < lineFreq e) (heQ : e ∉ Q) (hlt : (T e : WithTop K) < lab) (hw : 0 < waitAt h.pas i)
    (hearlier : ∀ b ∈ suc, T b ≤ T e) {l : K} (hl : l = (waitAt h.pas i + sumFT T (suc ++ [e])) / sumF (suc ++ [e])) :
    NodeInv h (Q ++ [e]) T i (l : WithTop K) labInf (suc ++ [e]) sucInf (freq + lineFreq e) ∧
    (l : WithTop K) ≤ lab ∧ T e < l := by
  have hpos : 0 < sumF (suc ++ [e]) := by
    apply Sidermit.sumF_pos
    · intro b hb
      rcases List.mem_append.1 hb with hb | hb
      · exact (hi.line b hb).2.2.2.1
      · rw [List.mem_singleton] at hb; subst hb; exact hf
    · simp
  -- the new label lies between the new time and the old label
  have hTl : T e < l := by
    rw [hl, lt_div_iff₀ hpos, sumFT_append, sumF_append]
    by_cases hne : suc = []
    · subst hne
      simp only [sumF, sumFT, List.map_nil, List.sum_nil]
      linarith
    · have h1 := hi.lab_eq hne
      have hp := hi.sumF_pos hne
      rw [h1, WithTop.coe_lt_coe, lt_div_iff₀ hp] at hlt
      linarith
  have hle : (l : WithTop K) ≤ lab := by
    by_cases hne : suc = []
    · have := hi.lab_nil hne
      rw [this]
      unfold initLabel
      split
      · rename_i hd
        cases hdest : h.dest with
        | none => rw [hdest] at hd; cases hd
        | some d =>
          rw [hdest] at hd
          simp only [Option.map_some, Option.some.injEq] at hd
          rw [hd] at hw
          simp [waitAt] at hw
      · exact le_top
    · have hp := hi.sumF_pos hne
      have h1 := hi.lab_eq hne
      rw [h1] at hlt ⊢
      rw [WithTop.coe_lt_coe, lt_div_iff₀ hp] at hlt
      rw [WithTop.coe_le_coe, hl, div_le_div_iff₀ hpos hp, sumFT_append, sumF_append]
      have : lineFreq e * (T e * sumF suc) ≤ lineFreq e * (waitAt h.pas i + sumFT T suc) :=
        mul_le_mul_of_nonneg_left hlt.le hf.le
      linarith [this]
  refine ⟨?_, hle, hTl⟩
  constructor
  · intro x hx hxi hxb
    rcases List.mem_append.1 hx with hx | hx
    · exact hi.inf_le x hx hxi hxb
    · rw [List.mem_singleton] at hx; subst hx; exact absurd hb hxb
  · rcases hi.inf_att with h | ⟨e, he, h⟩
    · exact Or.inl h
    · exact Or.inr ⟨e, List.mem_append_left _ he, h⟩
  · exact hi.inf_init
  · rw [List.nodup_append]
    refine ⟨hi.nodup, by simp, ?_⟩
    rintro a ha b hb' rfl
    rw [List.mem_singleton] at hb'
    subst hb'
    exact heQ (hi.line _ ha).1
  · intro b hb'
    rcases List.mem_append.1 hb' with hb' | hb'
    · have := hi.line b hb'
      refine ⟨List.mem_append_left _ this.1, this.2.1, this.2.2.1, this.2.2.2.1, ?_⟩
      rw [WithTop.coe_lt_coe]
      exact lt_of_le_of_lt (hearlier b hb') hTl
    · rw [List.mem_singleton] at hb'
      subst hb'
      exact ⟨by simp, hei, hb, hf, WithTop.coe_lt_coe.2 hTl⟩
  · rw [hi.freq_eq, sumF_append]
  · intro hne; simp at hne
  · intro _; rw [hl]
  · intro x hx hxi hxb hxf
    rcases List.mem_append.1 hx with hx | hx
    · rcases hi.rest x hx hxi hxb hxf with h | h
      · exact Or.inl (List.mem_append_left _ h)
      · exact Or.inr (hle.trans h)
    · rw [List.mem_singleton] at hx; subst hx; exact Or.inl (by simp)

end Sidermit
