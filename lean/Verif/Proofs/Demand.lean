import Verif.Spec.Demand
import Verif.Proofs.Dict
import Verif.Proofs.PyLemmas
import Mathlib.Tactic.Ring
import Mathlib.Tactic.Linarith

/-! The demand object: cells, sums, and what the constructors do. -/

set_option linter.unusedSectionVars false
set_option linter.unusedSimpArgs false

namespace Sidermit

section Sums
variable {K : Type} [Field K]

/-- weighted sum of the values of a dictionary -/
def wsum {α β : Type} (f : β → K) (d : Dict α β) : K := (d.map fun r => f r.2).sum

theorem wsum_set {α β : Type} [DecidableEq α] (f : β → K) (d : Dict α β) (k : α) (v : β) :
    wsum f (d.set k v) = wsum f d - ((d.get? k).map f).getD 0 + f v := by
  induction d with
  | nil => simp [wsum, Dict.set]
  | cons p t ih =>
    obtain ⟨k', v'⟩ := p
    by_cases h : k' = k
    · simp [wsum, Dict.set, Dict.get?, h, add_comm]
    · simp only [wsum] at ih
      simp only [wsum, Dict.set, Dict.get?, h, if_false, List.map_cons, List.sum_cons, ih]
      ring

theorem cellSum_eq (m : Dict Int (Dict Int K)) : cellSum m = wsum (wsum id) m := rfl

theorem cellSum_setCell (m : Dict Int (Dict Int K)) (o e : Int) (v : K) :
    cellSum (setCell m o e v) = cellSum m - (lookup2 m o e).getD 0 + v := by
  rw [cellSum_eq, cellSum_eq, setCell, wsum_set, wsum_set]
  unfold lookup2 Dict.getD
  cases h : m.get? o with
  | none => simp [wsum]
  | some r =>
    simp only [Option.map_some, Option.getD_some, Option.bind_some, id]
    cases h2 : r.get? e <;> simp <;> ring

end Sums

section Shape
variable {K : Type}

/-- the keys of a matrix -/
def shape (m : Dict Int (Dict Int K)) : List (Int × List Int) := m.map fun r => (r.1, Dict.keys r.2)

/-- no repeated keys -/
def KeysNodup (m : Dict Int (Dict Int K)) : Prop := (Dict.keys m).Nodup ∧ ∀ r ∈ m, (Dict.keys r.2).Nodup

theorem mem_set {α β : Type} [DecidableEq α] (d : Dict α β) (k : α) (v : β) {r : α × β} (h : r ∈ d.set k v) :
    r ∈ d ∨ r = (k, v) := by
  induction d with
  | nil => simp [Dict.set] at h; exact Or.inr h
  | cons p t ih =>
    obtain ⟨k', v'⟩ := p
    by_cases hk : k' = k
    · simp only [Dict.set, hk, if_true, List.mem_cons] at h
      rcases h with h | h
      · exact Or.inr h
      · exact Or.inl (List.mem_cons_of_mem _ h)
    · simp only [Dict.set, hk, if_false, List.mem_cons] at h
      rcases h with h | h
      · exact Or.inl (by simp [h])
      · rcases ih h with h | h
        · exact Or.inl (List.mem_cons_of_mem _ h)
        · exact Or.inr h

theorem keysNodup_setCell {m : Dict Int (Dict Int K)} (h : KeysNodup m) (o e : Int) (v : K) :
    KeysNodup (setCell m o e v) := by
  refine ⟨Dict.nodup_keys_set _ _ _ h.1, ?_⟩
  intro r hr
  rcases mem_set _ _ _ hr with hr | rfl
  · exact h.2 r hr
  · apply Dict.nodup_keys_set
    unfold Dict.getD
    cases hg : m.get? o with
    | none => simp [Dict.keys]
    | some row => exact h.2 _ (Dict.mem_of_get? _ hg)

theorem shape_set_of_keys {m : Dict Int (Dict Int K)} {o : Int} {row row' : Dict Int K}
    (h : m.get? o = some row) (hk : Dict.keys row' = Dict.keys row) : shape (m.set o row') = shape m := by
  induction m with
  | nil => simp at h
  | cons p t ih =>
    obtain ⟨k', v'⟩ := p
    by_cases hk' : k' = o
    · simp only [Dict.get?, hk', if_true, Option.some.injEq] at h
      subst h
      simp [shape, Dict.set, hk', hk]
    · simp only [Dict.get?, hk', if_false] at h
      have := ih h
      simp only [shape] at this
      simp [shape, Dict.set, hk', this]

theorem shape_setCell {m : Dict Int (Dict Int K)} {o e : Int} (v : K) (h : (lookup2 m o e).isSome) :
    shape (setCell m o e v) = shape m := by
  unfold lookup2 at h
  cases hg : m.get? o with
  | none => rw [hg] at h; simp at h
  | some row =>
    rw [hg] at h
    simp only [Option.bind_some] at h
    unfold setCell Dict.getD
    rw [hg]
    apply shape_set_of_keys hg
    apply Dict.keys_set_of_mem
    rw [Dict.mem_keys_iff]
    exact Option.isSome_iff_exists.1 h

theorem dict_ext {α β : Type} [DecidableEq α] {d d' : Dict α β} (hk : Dict.keys d = Dict.keys d')
    (hn : (Dict.keys d).Nodup) (h : ∀ k ∈ Dict.keys d, d.get? k = d'.get? k) : d = d' := by
  induction d generalizing d' with
  | nil => cases d' with
    | nil => rfl
    | cons p t => simp [Dict.keys] at hk
  | cons p t ih =>
    cases d' with
    | nil => simp [Dict.keys] at hk
    | cons p' t' =>
      obtain ⟨k, v⟩ := p
      obtain ⟨k', v'⟩ := p'
      simp only [Dict.keys, List.map_cons, List.cons.injEq] at hk
      obtain ⟨rfl, hk⟩ := hk
      simp only [Dict.keys, List.map_cons, List.nodup_cons] at hn
      have h0 := h k (by simp [Dict.keys])
      simp only [Dict.get?, if_true, Option.some.injEq] at h0
      subst h0
      rw [ih hk hn.2]
      intro j hj
      have := h j (by simp only [Dict.keys, List.map_cons, List.mem_cons]; exact Or.inr hj)
      have hne : k ≠ j := fun e => hn.1 (e ▸ hj)
      simpa [Dict.get?, hne] using this

theorem keys_of_shape {m m' : Dict Int (Dict Int K)} (h : shape m = shape m') : Dict.keys m = Dict.keys m' := by
  have := congrArg (List.map Prod.fst) h
  simpa [shape, Dict.keys, Function.comp_def] using this

theorem row_keys_of_shape {m m' : Dict Int (Dict Int K)} (h : shape m = shape m') (o : Int) :
    (m.get? o).map Dict.keys = (m'.get? o).map Dict.keys := by
  induction m generalizing m' with
  | nil => cases m' with
    | nil => rfl
    | cons p t => simp [shape] at h
  | cons p t ih =>
    cases m' with
    | nil => simp [shape] at h
    | cons p' t' =>
      obtain ⟨k, v⟩ := p
      obtain ⟨k', v'⟩ := p'
      simp only [shape, List.map_cons, List.cons.injEq, Prod.mk.injEq] at h
      obtain ⟨⟨rfl, hv⟩, ht⟩ := h
      by_cases hk : k = o
      · simp [Dict.get?, hk, hv]
      · simpa [Dict.get?, hk] using ih ht

theorem lookup2_isSome_of_shape {m m' : Dict Int (Dict Int K)} (h : shape m = shape m') (o e : Int) :
    (lookup2 m o e).isSome = (lookup2 m' o e).isSome := by
  have := row_keys_of_shape h o
  unfold lookup2
  cases h1 : m.get? o with
  | none => cases h2 : m'.get? o with
    | none => rfl
    | some r => rw [h1, h2] at this; simp at this
  | some r => cases h2 : m'.get? o with
    | none => rw [h1, h2] at this; simp at this
    | some r' =>
      rw [h1, h2] at this
      simp only [Option.map_some, Option.some.injEq] at this
      simp only [Option.bind_some]
      have key : ∀ q : Dict Int K, (q.get? e).isSome = decide (e ∈ Dict.keys q) := by
        intro q
        rw [Bool.eq_iff_iff, decide_eq_true_iff, Dict.mem_keys_iff, Option.isSome_iff_exists]
      rw [key, key, this]

theorem keysNodup_of_shape {m m' : Dict Int (Dict Int K)} (h : shape m = shape m') (hn : KeysNodup m) :
    KeysNodup m' := by
  refine ⟨keys_of_shape h ▸ hn.1, ?_⟩
  intro r hr
  have : (r.1, Dict.keys r.2) ∈ shape m' := List.mem_map.2 ⟨r, hr, rfl⟩
  rw [← h] at this
  obtain ⟨r0, hr0, he⟩ := List.mem_map.1 this
  simp only [Prod.mk.injEq] at he
  rw [← he.2]
  exact hn.2 r0 hr0

theorem matrix_ext {m m' : Dict Int (Dict Int K)} (hs : shape m = shape m') (hn : KeysNodup m)
    (h : ∀ o e, lookup2 m o e = lookup2 m' o e) : m = m' := by
  refine dict_ext (keys_of_shape hs) hn.1 ?_
  intro o ho
  have hr := row_keys_of_shape hs o
  obtain ⟨r, h1⟩ := (Dict.mem_keys_iff _ _).1 ho
  cases h2 : m'.get? o with
  | none => rw [h1, h2] at hr; simp at hr
  | some r' =>
    rw [h1, h2] at hr
    simp only [Option.map_some, Option.some.injEq] at hr
    rw [h1]
    congr 1
    refine dict_ext hr (hn.2 _ (Dict.mem_of_get? _ h1)) ?_
    intro e _
    have := h o e
    simpa [lookup2, h1, h2] using this

theorem mem_matrixKeys {m : Dict Int (Dict Int K)} (hn : KeysNodup m) (k : Int × Int) :
    k ∈ matrixKeys m ↔ (lookup2 m k.1 k.2).isSome := by
  unfold matrixKeys
  rw [List.mem_flatMap]
  constructor
  · rintro ⟨r, hr, hk⟩
    obtain ⟨c, hc, rfl⟩ := List.mem_map.1 hk
    have h1 := Dict.get?_of_mem m hn.1 (k := r.1) (v := r.2) hr
    have h2 := Dict.get?_of_mem r.2 (hn.2 r hr) (k := c.1) (v := c.2) hc
    simp [lookup2, h1, h2]
  · intro h
    unfold lookup2 at h
    cases h1 : m.get? k.1 with
    | none => rw [h1] at h; simp at h
    | some row =>
      rw [h1] at h
      simp only [Option.bind_some] at h
      obtain ⟨v, hv⟩ := Option.isSome_iff_exists.1 h
      exact ⟨(k.1, row), Dict.mem_of_get? _ h1, List.mem_map.2 ⟨(k.2, v), Dict.mem_of_get? _ hv, rfl⟩⟩

theorem nodup_matrixKeys {m : Dict Int (Dict Int K)} (hn : KeysNodup m) : (matrixKeys m).Nodup := by
  induction m with
  | nil => simp [matrixKeys]
  | cons p t ih =>
    obtain ⟨h1, h2⟩ := hn
    simp only [Dict.keys, List.map_cons, List.nodup_cons] at h1
    have iht := ih ⟨h1.2, fun r hr => h2 r (List.mem_cons_of_mem _ hr)⟩
    unfold matrixKeys at iht ⊢
    rw [List.flatMap_cons, List.nodup_append]
    refine ⟨?_, iht, ?_⟩
    · have := h2 p List.mem_cons_self
      unfold Dict.keys at this
      have hm : p.2.map (fun c => (p.1, c.1)) = (p.2.map Prod.fst).map (fun c => (p.1, c)) := by simp
      rw [hm]
      exact this.map (fun a b h => by simpa using h)
    · intro a ha b hb hab
      subst hab
      obtain ⟨c, _, rfl⟩ := List.mem_map.1 ha
      obtain ⟨r, hr, hc⟩ := List.mem_flatMap.1 hb
      obtain ⟨c', _, he⟩ := List.mem_map.1 hc
      simp only [Prod.mk.injEq] at he
      exact h1.1 (he.1 ▸ List.mem_map.2 ⟨r, hr, rfl⟩)

theorem matrixKeys_of_shape {m : Dict Int (Dict Int K)} :
    matrixKeys m = (shape m).flatMap fun r => r.2.map fun c => (r.1, c) := by
  unfold matrixKeys shape Dict.keys
  rw [List.flatMap_map]
  simp [Function.comp_def]

end Shape

section Default
variable {K : Type} [Field K] [LinearOrder K]

/-- a matrix whose cells are all zero -/
def AllZero (m : Dict Int (Dict Int K)) : Prop := KeysNodup m ∧ cellSum m = 0 ∧ ∀ a b, (lookup2 m a b).getD 0 = 0

theorem allZero_setCell {m : Dict Int (Dict Int K)} (h : AllZero m) (o e : Int) : AllZero (setCell m o e 0) := by
  refine ⟨keysNodup_setCell h.1 _ _ _, ?_, ?_⟩
  · rw [cellSum_setCell, h.2.1, h.2.2]; simp
  · intro a b
    rw [lookup2_setCell]
    split
    · rfl
    · exact h.2.2 a b

theorem inner_default (o : Int) (ds : List (Node K)) (m : Dict Int (Dict Int K)) (hn : AllZero m) :
    AllZero (ds.foldl (fun m d => setCell m o d.id 0) m) ∧
    (∀ a b, (lookup2 (ds.foldl (fun m d => setCell m o d.id 0) m) a b).isSome =
      (decide (a = o ∧ b ∈ ds.map Node.id) || (lookup2 m a b).isSome)) := by
  induction ds generalizing m with
  | nil => simp [hn]
  | cons d t ih =>
    simp only [List.foldl_cons]
    obtain ⟨h1, h2⟩ := ih (setCell m o d.id 0) (allZero_setCell hn _ _)
    refine ⟨h1, ?_⟩
    intro a b
    rw [h2, lookup2_setCell]
    by_cases ha : a = o <;> by_cases hb : b = d.id <;> simp [ha, hb]

theorem outer_default (ns os : List (Node K)) (m : Dict Int (Dict Int K)) (hn : AllZero m) :
    AllZero (os.foldl (fun m o => ns.foldl (fun m d => setCell m o.id d.id 0) m) m) ∧
    (∀ a b, (lookup2 (os.foldl (fun m o => ns.foldl (fun m d => setCell m o.id d.id 0) m) m) a b).isSome =
      (decide (a ∈ os.map Node.id ∧ b ∈ ns.map Node.id) || (lookup2 m a b).isSome)) := by
  induction os generalizing m with
  | nil => simp [hn]
  | cons o t ih =>
    simp only [List.foldl_cons]
    obtain ⟨g1, g2⟩ := inner_default o.id ns m hn
    obtain ⟨h1, h2⟩ := ih _ g1
    refine ⟨h1, ?_⟩
    intro a b
    rw [h2, g2]
    by_cases ha : a = o.id <;> by_cases hb : b ∈ ns.map Node.id <;> simp [ha, hb]

theorem defaultMatrix_allZero (ns : List (Node K)) : AllZero (defaultMatrix ns) :=
  (outer_default ns ns [] ⟨⟨by simp [Dict.keys], by simp⟩, by simp [cellSum], by simp [lookup2]⟩).1

theorem defaultMatrix_lookup (ns : List (Node K)) (a b : Int) :
    lookup2 (defaultMatrix ns) a b =
      if a ∈ ns.map Node.id ∧ b ∈ ns.map Node.id then some 0 else none := by
  have h := (outer_default ns ns [] ⟨⟨by simp [Dict.keys], by simp⟩, by simp [cellSum], by simp [lookup2]⟩).2 a b
  have h0 := (defaultMatrix_allZero ns).2.2 a b
  change (lookup2 (defaultMatrix ns) a b).isSome = _ at h
  cases hl : lookup2 (defaultMatrix ns) a b with
  | none =>
    rw [hl] at h
    rw [if_neg]
    intro hc
    simp [hc.1, hc.2] at h
  | some v =>
    rw [hl] at h h0
    simp only [Option.getD_some] at h0
    subst h0
    rw [if_pos]
    simpa [lookup2] using h.symm

end Default

section Change
variable {K : Type} [Field K] [LinearOrder K]

/-- the object after an accepted `change_vij` -/
def Demand.upd (d : Demand K) (o e : Int) (v : K) : Demand K :=
  { d with total := d.total - (lookup2 d.matrix o e).getD 0 + v, matrix := setCell d.matrix o e v }

theorem changeVij_of_lookup {d : Demand K} {o e : Int} {v : K} (hv : 0 ≤ v)
    (h : (lookup2 d.matrix o e).isSome) : d.changeVij o e v = (d.upd o e v, none) := by
  obtain ⟨old, hold⟩ := Option.isSome_iff_exists.1 h
  unfold Demand.changeVij Demand.upd
  rw [if_neg (not_lt.2 hv), hold]
  unfold lookup2 at hold
  cases h1 : d.matrix.get? o with
  | none => rw [h1] at hold; simp at hold
  | some row =>
    rw [h1] at hold
    simp only [Option.bind_some] at hold
    cases row with
    | nil => simp at hold
    | cons c row => simp only [hold, Option.getD_some]

theorem change_of_lookup {d : Demand K} {o e : Int} {v : K} (hv : 0 ≤ v)
    (h : (lookup2 d.matrix o e).isSome) : d.change o e v = .ok (d.upd o e v) := by
  unfold Demand.change; rw [changeVij_of_lookup hv h]

/-- the effect of `change_vij` -/
theorem changeVij_cases (d : Demand K) (o e : Int) (v : K) :
    (0 ≤ v ∧ (lookup2 d.matrix o e).isSome ∧ d.changeVij o e v = (d.upd o e v, none)) ∨
    ((v < 0 ∨ lookup2 d.matrix o e = none) ∧ ∃ err, d.changeVij o e v = (d, some err)) := by
  by_cases hv : v < 0
  · exact Or.inr ⟨Or.inl hv, _, by unfold Demand.changeVij; rw [if_pos hv]⟩
  · by_cases hl : (lookup2 d.matrix o e).isSome
    · exact Or.inl ⟨not_lt.1 hv, hl, changeVij_of_lookup (not_lt.1 hv) hl⟩
    · right
      have hl' : lookup2 d.matrix o e = none := by simpa using hl
      refine ⟨Or.inr hl', ?_⟩
      unfold Demand.changeVij
      rw [if_neg hv]
      unfold lookup2 at hl'
      cases h1 : d.matrix.get? o with
      | none => exact ⟨_, rfl⟩
      | some row =>
        rw [h1] at hl'
        simp only [Option.bind_some] at hl'
        cases row with
        | nil => exact ⟨_, rfl⟩
        | cons c row => simp only [hl']; exact ⟨_, rfl⟩

/-- the invariant of C01 -/
def Demand.Consistent (d : Demand K) : Prop := d.total = cellSum d.matrix

theorem consistent_upd {d : Demand K} (h : d.Consistent) (o e : Int) (v : K) : (d.upd o e v).Consistent := by
  unfold Demand.Consistent Demand.upd
  simp only
  rw [cellSum_setCell, h]

theorem consistent_init (g : Graph K) : (Demand.init g).Consistent := (defaultMatrix_allZero g.nodes).2.1.symm

/-- a property kept by every accepted change of a cell -/
def Demand.Kept (P : Demand K → Prop) : Prop :=
  ∀ (d : Demand K) (o e : Int) (v : K), P d → 0 ≤ v → (lookup2 d.matrix o e).isSome → P (d.upd o e v)

theorem kept_change {P : Demand K → Prop} (hP : Demand.Kept P) {d d' : Demand K} {o e : Int} {v : K}
    (hc : d.change o e v = .ok d') (h : P d) : P d' := by
  unfold Demand.change at hc
  rcases changeVij_cases d o e v with ⟨hv, hl, h1⟩ | ⟨_, err, h1⟩
  · rw [h1] at hc; cases hc; exact hP _ _ _ _ h hv hl
  · rw [h1] at hc; cases hc

theorem kept_changeIf {P : Demand K → Prop} (hP : Demand.Kept P) {d d' : Demand K} {c : Prop} [Decidable c] {o e : Int}
    {v : K} (hc : d.changeIf c o e v = .ok d') (h : P d) : P d' := by
  unfold Demand.changeIf at hc
  split at hc
  · exact kept_change hP hc h
  · cases hc; exact h

theorem kept_demandStep {P : Demand K → Prop} (hP : Demand.Kept P) {t : TripValues K} {d d' : Demand K} {k : Int × Int}
    (h : P d) (hs : demandStep t d k = .ok d') : P d' := by
  unfold demandStep at hs
  simp only at hs
  split at hs
  · cases hs; exact h
  · split at hs
    · cases hs; exact h
    · simp only [py_bind_eq_ok] at hs
      obtain ⟨d1, h1, d2, h2, d3, h3, d4, h4, h5⟩ := hs
      exact kept_changeIf hP h5 (kept_changeIf hP h4 (kept_changeIf hP h3
        (kept_changeIf hP h2 (kept_changeIf hP h1 h))))

theorem kept_contentCell {P : Demand K → Prop} (hP : Demand.Kept P) {ns : List (Node K)} {i : Int} {row : List K}
    {d d' : Demand K} {j : Nat} (h : P d) (hs : contentCell ns i row d j = .ok d') : P d' := by
  unfold contentCell at hs
  simp only [py_bind_eq_ok] at hs
  obtain ⟨_, _, _, _, _, _, h4⟩ := hs
  exact kept_change hP h4 h

theorem kept_contentRow {P : Demand K → Prop} (hP : Demand.Kept P) {ns : List (Node K)} {mx : List (List K)}
    {d d' : Demand K} {i : Nat} (h : P d) (hs : contentRow ns mx d i = .ok d') : P d' := by
  unfold contentRow at hs
  simp only [py_bind_eq_ok] at hs
  obtain ⟨_, _, _, _, _, _, h4⟩ := hs
  exact foldlM_invariant _ P _ (fun s a s' _ hp hq => kept_contentCell hP hp hq) h h4

theorem kept_csvStep [NumText K] {P : Demand K → Prop} (hP : Demand.Kept P) {d d' : Demand K} {l : Str} (h : P d)
    (hs : csvStep d l = .ok d') : P d' := by
  unfold csvStep at hs
  split at hs
  · split at hs
    · exact kept_change hP hs h
    · cases hs
  · cases hs

theorem kept_built [NumText K] {P : Demand K → Prop} (hP : Demand.Kept P) {g : Graph K} (h0 : P (Demand.init g))
    {d : Demand K} (h : Demand.Built g d) : P d := by
  cases h with
  | init => exact h0
  | @params y a alpha beta _ h =>
    unfold Demand.buildFromParameters at h
    rw [py_bind_eq_ok] at h
    obtain ⟨_, _, h⟩ := h
    cases hn : g.n with
    | none => rw [hn] at h; cases h
    | some n =>
      rw [hn] at h
      exact foldlM_invariant _ P _ (fun s a s' _ hp hq => kept_demandStep hP hp hq) h0 h
  | content h =>
    unfold Demand.buildFromContent at h
    rw [py_bind_eq_ok] at h
    obtain ⟨_, _, h⟩ := h
    exact foldlM_invariant _ P _ (fun s a s' _ hp hq => kept_contentRow hP hp hq) h0 h
  | file h =>
    exact foldlM_invariant _ P _ (fun s a s' _ hp hq => kept_csvStep hP hp hq) h0 h

theorem consistent_history [NumText K] {g : Graph K} {okRead : Int → Int → Prop} {d : Demand K}
    (h : Demand.History g okRead d) : d.Consistent := by
  induction h with
  | built h => exact kept_built (P := Demand.Consistent) (fun d o e v hd _ _ => consistent_upd hd o e v) (consistent_init g) h
  | @change d o e v _ ih =>
    rcases changeVij_cases d o e v with ⟨_, _, h1⟩ | ⟨_, err, h1⟩
    · rw [h1]; exact consistent_upd ih _ _ _
    · rw [h1]; exact ih
  | @read d o e _ _ ih =>
    unfold Demand.readCell
    split
    · exact ih
    · rename_i hl
      unfold Demand.Consistent at ih ⊢
      simp only
      rw [cellSum_setCell, hl, ih]
      simp

/-- what an object produced without reads of foreign cells looks like: the cells are exactly the pairs of nodes, and no
cell is negative -/
structure Demand.NodeCells (g : Graph K) (d : Demand K) : Prop where
  graph : d.graph = g
  shape : shape d.matrix = shape (defaultMatrix g.nodes)
  nonneg : ∀ o e v, lookup2 d.matrix o e = some v → 0 ≤ v

theorem nodeCells_init [IsStrictOrderedRing K] (g : Graph K) : (Demand.init g).NodeCells g := by
  refine ⟨rfl, rfl, ?_⟩
  intro o e v h
  unfold Demand.init at h
  simp only at h
  rw [defaultMatrix_lookup] at h
  split at h <;> simp at h
  exact h ▸ le_refl _

theorem nodeCells_kept (g : Graph K) : Demand.Kept (Demand.NodeCells (K := K) g) := by
  intro d o e v h hv hl
  refine ⟨h.graph, (shape_setCell v hl).trans h.shape, ?_⟩
  intro a b w hw
  unfold Demand.upd at hw
  simp only at hw
  rw [lookup2_setCell] at hw
  split at hw
  · cases hw; exact hv
  · exact h.nonneg a b w hw

theorem nodeCells_lookup {g : Graph K} {d : Demand K} (h : d.NodeCells g) (o e : Int) :
    (lookup2 d.matrix o e).isSome ↔ IsNodeId g o ∧ IsNodeId g e := by
  rw [lookup2_isSome_of_shape h.shape, defaultMatrix_lookup]
  unfold IsNodeId
  split
  · rename_i hc; simp only [Option.isSome_some, true_iff]; exact hc
  · rename_i hc; simp only [Option.isSome_none, Bool.false_eq_true, false_iff]; exact hc

theorem nodeCells_nodup {g : Graph K} {d : Demand K} (h : d.NodeCells g) : KeysNodup d.matrix :=
  keysNodup_of_shape h.shape.symm (defaultMatrix_allZero g.nodes).1

theorem nodeCells_history [IsStrictOrderedRing K] [NumText K] {g : Graph K} {d : Demand K}
    (h : Demand.History g (fun o e => IsNodeId g o ∧ IsNodeId g e) d) : d.NodeCells g := by
  induction h with
  | built h => exact kept_built (nodeCells_kept g) (nodeCells_init g) h
  | @change d o e v _ ih =>
    rcases changeVij_cases d o e v with ⟨hv, hl, h1⟩ | ⟨_, err, h1⟩
    · rw [h1]; exact nodeCells_kept g _ _ _ _ ih hv hl
    · rw [h1]; exact ih
  | @read d o e hr _ ih =>
    unfold Demand.readCell
    obtain ⟨v, hv⟩ := Option.isSome_iff_exists.1 ((nodeCells_lookup ih o e).2 hr)
    rw [hv]
    exact ih

/-- a row of the matrix exists and is not empty iff some cell of it exists -/
theorem nodeCells_row {g : Graph K} {d : Demand K} (h : d.NodeCells g) (o : Int) :
    (∃ c row, d.matrix.get? o = some (c :: row)) ↔ IsNodeId g o := by
  constructor
  · rintro ⟨c, row, h1⟩
    have : (lookup2 d.matrix o c.1).isSome := by simp [lookup2, h1, Dict.get?]
    exact ((nodeCells_lookup h o c.1).1 this).1
  · intro ho
    have h2 := (nodeCells_lookup h o o).2 ⟨ho, ho⟩
    unfold lookup2 at h2
    cases h1 : d.matrix.get? o with
    | none => rw [h1] at h2; simp at h2
    | some row =>
      rw [h1] at h2
      cases row with
      | nil => simp at h2
      | cons c row => exact ⟨c, row, rfl⟩

/-- the object after a loop that assigns `val k` to the cells `k ∈ ks` -/
theorem fold_cells {f : Demand K → Int × Int → Py (Demand K)} {val : Int × Int → Option K} {ks : List (Int × Int)}
    (hnd : ks.Nodup) {d0 : Demand K}
    (hstep : ∀ d k, k ∈ ks → d.graph = d0.graph → (lookup2 d.matrix k.1 k.2).isSome →
      f d k = .ok (match val k with | none => d | some v => d.upd k.1 k.2 v))
    (hsome : ∀ k ∈ ks, (lookup2 d0.matrix k.1 k.2).isSome) :
    ∃ d', ks.foldlM f d0 = .ok d' ∧ d'.graph = d0.graph ∧ shape d'.matrix = shape d0.matrix ∧
      (∀ o e, lookup2 d'.matrix o e =
        if (o, e) ∈ ks then (val (o, e)).orElse (fun _ => lookup2 d0.matrix o e) else lookup2 d0.matrix o e) := by
  induction ks generalizing d0 with
  | nil => exact ⟨d0, rfl, rfl, rfl, by simp⟩
  | cons k t ih =>
    have hk := hsome k List.mem_cons_self
    rw [List.nodup_cons] at hnd
    rw [foldlM_cons, hstep d0 k List.mem_cons_self rfl hk, py_ok_bind]
    cases hv : val k with
    | none =>
      simp only
      obtain ⟨d', h1, h2, h3, h4⟩ := ih hnd.2 (fun d k' hk' => hstep d k' (List.mem_cons_of_mem _ hk'))
        (fun k' hk' => hsome k' (List.mem_cons_of_mem _ hk'))
      refine ⟨d', h1, h2, h3, ?_⟩
      intro o e
      rw [h4]
      by_cases hoe : (o, e) = k
      · rw [hoe, if_neg hnd.1, if_pos List.mem_cons_self, hv]; rfl
      · by_cases ht : (o, e) ∈ t
        · rw [if_pos ht, if_pos (List.mem_cons_of_mem _ ht)]
        · rw [if_neg ht, if_neg]
          intro h
          rcases List.mem_cons.1 h with h | h
          · exact hoe h
          · exact ht h
    | some v =>
      simp only
      have hsh : shape (d0.upd k.1 k.2 v).matrix = shape d0.matrix := shape_setCell v hk
      obtain ⟨d', h1, h2, h3, h4⟩ := ih (d0 := d0.upd k.1 k.2 v) hnd.2
        (fun d k' hk' hg => hstep d k' (List.mem_cons_of_mem _ hk') hg)
        (fun k' hk' => by rw [lookup2_isSome_of_shape hsh]; exact hsome k' (List.mem_cons_of_mem _ hk'))
      refine ⟨d', h1, h2, h3.trans hsh, ?_⟩
      intro o e
      rw [h4]
      have hu : lookup2 (d0.upd k.1 k.2 v).matrix o e = if (o, e) = k then some v else lookup2 d0.matrix o e := by
        unfold Demand.upd
        simp only
        rw [lookup2_setCell]
        congr 1
        simp [Prod.ext_iff]
      rw [hu]
      by_cases hoe : (o, e) = k
      · rw [if_pos hoe, hoe, if_neg hnd.1, if_pos List.mem_cons_self, hv]; rfl
      · rw [if_neg hoe]
        by_cases ht : (o, e) ∈ t
        · rw [if_pos ht, if_pos (List.mem_cons_of_mem _ ht)]
        · rw [if_neg ht, if_neg]
          intro h
          rcases List.mem_cons.1 h with h | h
          · exact hoe h
          · exact ht h

end Change

end Sidermit
