import Verif.Proofs.HyperOpt
import Verif.Proofs.Dict
import Mathlib.Data.List.Chain

/-!
The elementary paths of a hyperpath.
-/

set_option linter.unusedSectionVars false

namespace Sidermit

variable {K : Type} [Field K] [LinearOrder K]

section Loop

variable {succ : ENode K → List (EEdge K)} {dest : ENode K}

theorem pathsLoop_zero (paths : List (List (ENode K))) : pathsLoop succ dest 0 paths =
    if paths.all (fun p => p.getLast? = some dest) then some paths else none := by
  rw [pathsLoop]

theorem pathsLoop_succ (n : Nat) (paths : List (List (ENode K))) : pathsLoop succ dest (n + 1) paths =
    if paths.all (fun p => p.getLast? = some dest) then some paths
    else pathsLoop succ dest n (paths.flatMap (extendPath succ dest)) := by
  rw [pathsLoop]

/-- the loop ends when the successors go down in rank -/
theorem pathsLoop_some {rank : ENode K → Nat} (hr : ∀ x, ∀ e ∈ succ x, rank e.j < rank x) : ∀ (n : Nat) (paths : List (List (ENode K))),
    (∀ p ∈ paths, ∀ x, p.getLast? = some x → x ≠ dest → rank x < n ∨ (succ x = [] ∧ 0 < n)) → (∀ p ∈ paths, p ≠ []) →
    ∃ l, pathsLoop succ dest n paths = some l := by
  intro n
  induction n with
  | zero =>
    intro paths h hne
    rw [pathsLoop_zero, if_pos]
    · exact ⟨_, rfl⟩
    · rw [List.all_eq_true]
      intro p hp
      obtain ⟨x, hx⟩ := Option.isSome_iff_exists.1 (List.getLast?_isSome.2 (hne p hp))
      by_cases hd : x = dest
      · simp [hx, hd]
      · rcases h p hp x hx hd with h | h <;> omega
  | succ n ih =>
    intro paths h hne
    rw [pathsLoop_succ]
    split
    · exact ⟨_, rfl⟩
    · apply ih
      · intro p hp x hx hxd
        obtain ⟨p0, hp0, hpe⟩ := List.mem_flatMap.1 hp
        obtain ⟨y, hy⟩ := Option.isSome_iff_exists.1 (List.getLast?_isSome.2 (hne p0 hp0))
        unfold extendPath at hpe
        rw [hy] at hpe
        simp only at hpe
        split at hpe
        · rename_i hyd
          obtain ⟨e, he, rfl⟩ := List.mem_map.1 hpe
          rw [List.getLast?_append] at hx
          simp only [List.getLast?_singleton, Option.some_or, Option.some.injEq] at hx
          subst hx
          have h1 := hr y e he
          rcases h p0 hp0 y hy hyd with h2 | ⟨h2, _⟩
          · exact Or.inl (by omega)
          · rw [h2] at he; simp at he
        · rename_i hyd
          rw [List.mem_singleton] at hpe
          subst hpe
          rw [hy] at hx
          exact absurd (Option.some.inj hx ▸ not_not.1 hyd) hxd
      · intro p hp
        obtain ⟨p0, hp0, hpe⟩ := List.mem_flatMap.1 hp
        unfold extendPath at hpe
        split at hpe
        · simp at hpe
        · split at hpe
          · obtain ⟨e, _, rfl⟩ := List.mem_map.1 hpe
            simp
          · rw [List.mem_singleton] at hpe
            exact hpe ▸ hne p0 hp0

theorem Leads.at_dest {q : List (ENode K)} (h : Leads succ dest dest q) : q = [] := by
  cases h with
  | here => rfl
  | step hx => exact absurd rfl hx

/-- the loop returns exactly the continuations to the destination -/
theorem mem_pathsLoop : ∀ (n : Nat) (paths l : List (List (ENode K))), (∀ p ∈ paths, p ≠ []) →
    pathsLoop succ dest n paths = some l →
    ∀ p, p ∈ l ↔ ∃ p0 ∈ paths, ∃ x q, p0.getLast? = some x ∧ Leads succ dest x q ∧ p = p0 ++ q := by
  have harr : ∀ paths : List (List (ENode K)), (∀ p ∈ paths, p ≠ []) →
      paths.all (fun p => p.getLast? = some dest) = true →
      ∀ p, p ∈ paths ↔ ∃ p0 ∈ paths, ∃ x q, p0.getLast? = some x ∧ Leads succ dest x q ∧ p = p0 ++ q := by
    intro paths hne hall p
    rw [List.all_eq_true] at hall
    constructor
    · intro hp
      exact ⟨p, hp, dest, [], by simpa using hall p hp, Leads.here, by simp⟩
    · rintro ⟨p0, hp0, x, q, hx, hq, rfl⟩
      have := hall p0 hp0
      simp only [decide_eq_true_eq] at this
      rw [this] at hx
      rw [← Option.some.inj hx] at hq
      rw [hq.at_dest, List.append_nil]
      exact hp0
  intro n
  induction n with
  | zero =>
    intro paths l hne h p
    rw [pathsLoop_zero] at h
    split at h
    · rename_i hall
      rw [← Option.some.inj h]
      exact harr paths hne hall p
    · cases h
  | succ n ih =>
    intro paths l hne h p
    rw [pathsLoop_succ] at h
    split at h
    · rename_i hall
      rw [← Option.some.inj h]
      exact harr paths hne hall p
    · rw [ih _ _ ?_ h p]
      · constructor
        · rintro ⟨p1, hp1, x, q, hx, hq, rfl⟩
          obtain ⟨p0, hp0, hpe⟩ := List.mem_flatMap.1 hp1
          obtain ⟨y, hy⟩ := Option.isSome_iff_exists.1 (List.getLast?_isSome.2 (hne p0 hp0))
          refine ⟨p0, hp0, ?_⟩
          unfold extendPath at hpe
          rw [hy] at hpe
          simp only at hpe
          split at hpe
          · rename_i hyd
            obtain ⟨e, he, rfl⟩ := List.mem_map.1 hpe
            rw [List.getLast?_append] at hx
            simp only [List.getLast?_singleton, Option.some_or, Option.some.injEq] at hx
            subst hx
            exact ⟨y, e.j :: q, hy, Leads.step hyd e he hq, by simp⟩
          · rw [List.mem_singleton] at hpe
            subst hpe
            exact ⟨x, q, hx, hq, rfl⟩
        · rintro ⟨p0, hp0, x, q, hx, hq, rfl⟩
          cases hq with
          | here =>
            refine ⟨p0, List.mem_flatMap.2 ⟨p0, hp0, ?_⟩, dest, [], hx, Leads.here, rfl⟩
            unfold extendPath
            rw [hx]
            simp
          | @step _ q hxd e he hq =>
            refine ⟨p0 ++ [e.j], List.mem_flatMap.2 ⟨p0, hp0, ?_⟩, e.j, q, by simp, hq, by simp⟩
            unfold extendPath
            rw [hx]
            simp only [if_pos hxd]
            exact List.mem_map.2 ⟨e, he, rfl⟩
      · intro p hp
        obtain ⟨p0, hp0, hpe⟩ := List.mem_flatMap.1 hp
        unfold extendPath at hpe
        split at hpe
        · simp at hpe
        · split at hpe
          · obtain ⟨e, _, rfl⟩ := List.mem_map.1 hpe
            simp
          · rw [List.mem_singleton] at hpe
            exact hpe ▸ hne p0 hp0

/-- no path is the beginning of another one -/
def Apart (p q : List (ENode K)) : Prop := ¬ p <+: q ∧ ¬ q <+: p

theorem Apart.extend {p q p' q' : List (ENode K)} (h : Apart p q) (hp : p <+: p') (hq : q <+: q') : Apart p' q' := by
  constructor
  · intro hh
    rcases List.prefix_or_prefix_of_prefix (hp.trans hh) hq with h1 | h1
    · exact h.1 h1
    · exact h.2 h1
  · intro hh
    rcases List.prefix_or_prefix_of_prefix (hq.trans hh) hp with h1 | h1
    · exact h.2 h1
    · exact h.1 h1

theorem extendPath_prefix {p0 p : List (ENode K)} (h : p ∈ extendPath succ dest p0) : p0 <+: p := by
  unfold extendPath at h
  split at h
  · simp at h
  · split at h
    · obtain ⟨e, _, rfl⟩ := List.mem_map.1 h
      exact List.prefix_append _ _
    · rw [List.mem_singleton] at h
      exact h ▸ List.prefix_refl _

/-- every path is returned once -/
theorem pathsLoop_nodup (hs : ∀ x, ((succ x).map EEdge.j).Nodup) : ∀ (n : Nat) (paths l : List (List (ENode K))),
    (∀ p ∈ paths, p ≠ []) → paths.Pairwise Apart → pathsLoop succ dest n paths = some l → l.Nodup := by
  have hfin : ∀ paths : List (List (ENode K)), paths.Pairwise Apart → paths.Nodup := by
    intro paths h
    refine h.imp ?_
    rintro p q ⟨h1, _⟩ rfl
    exact h1 (List.prefix_refl _)
  intro n
  induction n with
  | zero =>
    intro paths l hne hp h
    rw [pathsLoop_zero] at h
    split at h
    · rw [← Option.some.inj h]; exact hfin _ hp
    · cases h
  | succ n ih =>
    intro paths l hne hp h
    rw [pathsLoop_succ] at h
    split at h
    · rw [← Option.some.inj h]; exact hfin _ hp
    · refine ih _ _ ?_ ?_ h
      · intro p hp
        obtain ⟨p0, hp0, hpe⟩ := List.mem_flatMap.1 hp
        intro hh
        have := extendPath_prefix hpe
        rw [hh, List.prefix_nil] at this
        exact hne p0 hp0 this
      · rw [List.pairwise_flatMap]
        constructor
        · intro p0 hp0
          unfold extendPath
          split
          · simp
          · split
            · rename_i x _ _
              rw [List.pairwise_map]
              have h1 := hs x
              rw [List.Nodup, List.pairwise_map] at h1
              refine h1.imp ?_
              intro a b hab
              have key : ∀ {a b : EEdge K}, a.j ≠ b.j → ¬ p0 ++ [a.j] <+: p0 ++ [b.j] := by
                intro a b hab hh
                have := (List.prefix_append_right_inj _).1 hh
                simp at this
                exact hab this
              exact ⟨key hab, key (Ne.symm hab)⟩
            · simp
        · refine hp.imp ?_
          intro a b hab p hp q hq
          exact hab.extend (extendPath_prefix hp) (extendPath_prefix hq)

theorem Leads.getLast {x : ENode K} {q : List (ENode K)} (h : Leads succ dest x q) : (x :: q).getLast? = some dest := by
  induction h with
  | here => rfl
  | step _ e _ _ ih => rw [List.getLast?_cons_cons]; exact ih

/-- consecutive nodes are joined by successors -/
theorem Leads.chain {x : ENode K} {q : List (ENode K)} (h : Leads succ dest x q) :
    List.IsChain (fun a b => ∃ e ∈ succ a, e.j = b) (x :: q) := by
  induction h with
  | here => simp
  | step _ e he _ ih => exact List.IsChain.cons_cons ⟨e, he, rfl⟩ ih

theorem Leads.mem {x : ENode K} {q : List (ENode K)} (h : Leads succ dest x q) : ∀ y ∈ q, ∃ a, ∃ e ∈ succ a, e.j = y := by
  induction h with
  | here => simp
  | step _ e he _ ih =>
    intro y hy
    rcases List.mem_cons.1 hy with rfl | hy
    · exact ⟨_, e, he, rfl⟩
    · exact ih y hy

theorem Leads.rank_lt {rank : ENode K → Nat} (hr : ∀ x, ∀ e ∈ succ x, rank e.j < rank x) {x : ENode K} {q : List (ENode K)}
    (h : Leads succ dest x q) : (∀ y ∈ q, rank y < rank x) ∧ (x :: q).Nodup := by
  induction h with
  | here => simp
  | @step x q _ e he _ ih =>
    have h1 := hr _ e he
    have hlt : ∀ y ∈ e.j :: q, rank y < rank x := by
      intro y hy
      rcases List.mem_cons.1 hy with rfl | hy
      · exact h1
      · exact (ih.1 y hy).trans h1
    refine ⟨hlt, List.nodup_cons.2 ⟨fun hm => lt_irrefl _ (hlt _ hm), ih.2⟩⟩

end Loop

variable [IsStrictOrderedRing K] {h : HInput K} {Q : List (EEdge K)} {st : HState K}

theorem finalSucc_rank (hg : h.Good) (hF : Final h Q st) (x : ENode K) : ∀ e ∈ finalSucc st x,
    st.done.idxOf (some e.j) < st.done.idxOf (some x) := by
  intro e he
  obtain ⟨hQ, hei⟩ := (finalSucc_spec hg hF x).1 e he
  have := (hF.inv.seen e hQ).2.2.2
  rwa [hei] at this

theorem nodup_of_pairs {l : List (EEdge K)} {edges : List (EEdge K)} (he : (edges.map fun e => (e.i, e.j)).Nodup)
    (hl : l.Nodup) (hsub : ∀ e ∈ l, e ∈ edges) {x : ENode K} (hx : ∀ e ∈ l, e.i = x) : (l.map EEdge.j).Nodup := by
  rw [List.nodup_map_iff_inj_on hl]
  intro a ha b hb hab
  exact List.inj_on_of_nodup_map he (hsub a ha) (hsub b hb) (by rw [hx a ha, hx b hb, hab])

/-- the successors of a node lead to different nodes -/
theorem finalSucc_inj (hg : h.Good) (hF : Final h Q st) (x : ENode K) : ((finalSucc st x).map EEdge.j).Nodup := by
  obtain ⟨h1, h2⟩ := finalSucc_spec hg hF x
  refine nodup_of_pairs hg.edges_nodup ?_ (fun e he => (hF.inv.seen e (h1 e he).1).1) (fun e he => (h1 e he).2)
  unfold finalSucc
  split
  · exact (hF.inv.node x).nodup
  · cases st.sucInf x <;> simp

/-- the number of nodes settled before a node -/
def rankOf (h : HInput K) (st : HState K) (x : ENode K) : Nat :=
  ((allNodes h.nodes).filter fun y => decide (st.done.idxOf (some y) < st.done.idxOf (some x))).length

theorem filter_length_lt {α : Type} {p q : α → Bool} {l : List α} (hpq : ∀ x ∈ l, p x = true → q x = true) {a : α}
    (ha : a ∈ l) (h1 : q a = true) (h2 : p a = false) : (l.filter p).length < (l.filter q).length := by
  have hsub : (l.filter p).Sublist (l.filter q) := by
    have : l.filter p = (l.filter q).filter p := by
      rw [List.filter_filter]
      apply List.filter_congr
      intro x hx
      cases hp : p x
      · rfl
      · simp [hpq x hx hp]
    rw [this]
    exact List.filter_sublist
  apply lt_of_le_of_ne hsub.length_le
  intro hl
  have := hsub.eq_of_length hl
  have hm : a ∈ l.filter q := List.mem_filter.2 ⟨ha, h1⟩
  rw [← this, List.mem_filter, h2] at hm
  simp at hm

theorem rankOf_lt (hg : h.Good) (hF : Final h Q st) (x : ENode K) : ∀ e ∈ finalSucc st x, rankOf h st e.j < rankOf h st x := by
  intro e he
  have hlt := finalSucc_rank hg hF x e he
  obtain ⟨hQ, _⟩ := (finalSucc_spec hg hF x).1 e he
  obtain ⟨h1, _, _, _⟩ := hF.inv.seen e hQ
  apply filter_length_lt (a := e.j)
  · intro y _ hy
    simp only [decide_eq_true_eq] at hy ⊢
    exact hy.trans hlt
  · exact (hg.ends _ h1).2
  · simpa using hlt
  · simp

theorem rankOf_lt_length {x : ENode K} (hx : x ∈ allNodes h.nodes) : rankOf h st x < (allNodes h.nodes).length := by
  have := filter_length_lt (l := allNodes h.nodes) (q := fun _ => true)
    (p := fun y => decide (st.done.idxOf (some y) < st.done.idxOf (some x))) (fun _ _ _ => rfl) hx rfl (by simp)
  simpa [rankOf] using this

/-- from a node with a finite label the successors lead to the destination -/
theorem leads_of_best (hg : h.Good) (hF : Final h Q st) {d : CityNode K} (hd : h.dest = some d) : ∀ (n : Nat) (x : ENode K),
    st.done.idxOf (some x) ≤ n → st.best x ≠ ⊤ → ∃ q, Leads (finalSucc st) (.city d) x q := by
  intro n
  induction n using Nat.strong_induction_on with
  | _ n ih =>
    intro x hn hx
    by_cases hxd : x = .city d
    · exact ⟨[], hxd ▸ Leads.here⟩
    · have hne : finalSucc st x ≠ [] := by
        rcases (finalSucc_spec hg hF x).2 with ⟨d', hd', rfl, _⟩ | ⟨hb, _⟩ | ⟨e, hsucc, _⟩ | ⟨hne, _⟩
        · rw [hd] at hd'
          exact absurd (by rw [Option.some.inj hd']) hxd
        · exact absurd hb hx
        · rw [hsucc]; simp
        · exact hne
      obtain ⟨e, he⟩ := List.exists_mem_of_ne_nil _ hne
      have hr := finalSucc_rank hg hF x e he
      obtain ⟨hQ, _⟩ := (finalSucc_spec hg hF x).1 e he
      obtain ⟨q, hq⟩ := ih _ (lt_of_lt_of_le hr hn) e.j (le_refl _) (hF.inv.fin _ (hF.inv.seen e hQ).2.2.1)
      exact ⟨e.j :: q, Leads.step hxd e he hq⟩

/-- nothing leads to the destination from a node without finite label -/
theorem best_of_leads (hg : h.Good) (hF : Final h Q st) {d : CityNode K} (hd : h.dest = some d) {x : ENode K}
    {q : List (ENode K)} (hq : Leads (finalSucc st) (.city d) x q) : st.best x ≠ ⊤ := by
  cases hq with
  | here =>
    intro hb
    have h1 := (hF.inv.node (.city d)).inf_init
    have h2 : st.best (.city d) ≤ st.labInf (.city d) := min_le_right _ _
    rw [hb] at h2
    unfold initLabel at h1
    rw [hd] at h1
    have := h2.trans h1
    simp at this
  | step _ e he _ =>
    intro hb
    rcases (finalSucc_spec hg hF x).2 with ⟨d', _, _, hb'⟩ | ⟨_, hs⟩ | ⟨_, _, _, hb'⟩ | ⟨_, _, _, _, _, hb'⟩
    · rw [hb] at hb'; simp at hb'
    · rw [hs] at he; simp at he
    · rw [hb] at hb'; simp at hb'
    · rw [hb] at hb'; simp at hb'

/-- at a stop where lines are boarded the lines are those that lead to a node with a smaller label -/
theorem finalSucc_attractive (hg : h.Good) (hF : Final h Q st) {x : ENode K} {b0 : EEdge K} (hb0 : b0 ∈ finalSucc st x)
    (ht0 : b0.type = .boarding) {b : EEdge K} (hb : b ∈ h.edges) (ht : b.type = .boarding) (hbi : b.i = x)
    (hf : 0 < lineFreq b) : b ∈ finalSucc st x ↔ st.best b.j < st.best x := by
  have hlt : st.lab x < st.labInf x := by
    by_contra hlt
    unfold finalSucc at hb0
    rw [if_neg hlt] at hb0
    rcases (hF.inv.node x).inf_att with ⟨h1, _⟩ | ⟨e, _, _, heb, h1, _⟩
    · rw [h1] at hb0; simp at hb0
    · rw [h1] at hb0
      simp only [Option.toList_some, List.mem_singleton] at hb0
      exact heb (hb0 ▸ ht0)
  have hbest : st.best x = st.lab x := min_eq_left hlt.le
  have hT : ∀ e ∈ h.edges, e.type = .boarding → some e.j ∈ st.done → ((st.T h e : K) : WithTop K) = st.best e.j := by
    intro e he hty hj
    have h0 : legTime h.pas h.dest e = 0 := by
      unfold legTime
      rw [hty]
      exact (hg.board e he hty).1
    unfold HState.T
    rw [h0, zero_add, hF.inv.best_eq hj]
  have hsucc : finalSucc st x = st.suc x := by unfold finalSucc; rw [if_pos hlt]
  rw [hsucc, hbest]
  constructor
  · intro hm
    obtain ⟨hQ, _, _, _, hlt'⟩ := (hF.inv.node x).line b hm
    rw [hT b hb ht (hF.inv.seen b hQ).2.2.1] at hlt'
    exact hlt'
  · intro hlt'
    have hne : st.best b.j ≠ ⊤ := fun hh => by rw [hh] at hlt'; exact not_top_lt hlt'
    have hjd := hF.all _ (hg.ends _ hb).2 hne
    have hxfin : st.best x ≠ ⊤ := by
      rw [hbest]
      exact hlt.ne_top
    have hxd : some x ∈ st.done := hF.all _ (hbi ▸ (hg.ends _ hb).1) hxfin
    have hidx : st.done.idxOf (some b.j) < st.done.idxOf (some b.i) := by
      rw [hbi]
      by_contra hge
      have := hF.inv.mono _ _ hxd hjd (not_lt.1 hge)
      rw [hbest] at this
      exact absurd hlt' (not_lt.2 this)
    have hQ := hF.comp b hb (usable_boarding hg hb ht) hjd hidx
    rcases (hF.inv.node x).rest b hQ hbi ht hf with hh | hh
    · exact hh
    · rw [hT b hb ht hjd] at hh
      exact absurd hlt' (not_lt.2 hh)

theorem mem_allNodes_stop {nodes : ENodes K} {s : StopNode K} {o : CityNode K} (hs : s ∈ stopsAt nodes (some o)) :
    .stop s ∈ allNodes nodes := by
  unfold stopsAt Dict.getD at hs
  simp only at hs
  cases hc : Dict.get? nodes o with
  | none => rw [hc] at hs; simp [Dict.keys] at hs
  | some v =>
    rw [hc] at hs
    simp only [Option.getD_some] at hs
    unfold Dict.keys at hs
    obtain ⟨p, hp, rfl⟩ := List.mem_map.1 hs
    unfold allNodes
    refine List.mem_flatMap.2 ⟨(o, v), Dict.mem_of_get? _ hc, ?_⟩
    refine List.mem_cons_of_mem _ (List.mem_flatMap.2 ⟨p, hp, ?_⟩)
    simp

theorem pathsOfStop_spec (hg : h.Good) {o d : CityNode K} (hF : Final h Q st) {r : HResult K} (hr : r.succ = finalSucc st) {s : StopNode K} (hs : .stop s ∈ allNodes h.nodes) :
    ∃ l, pathsOfStop h r o d s = .ok l ∧ l.Nodup ∧
      ∀ p, p ∈ l ↔ ∃ q, Leads (finalSucc st) (.city d) (.stop s) q ∧ p = .city o :: .stop s :: q := by
  obtain ⟨l, hl⟩ : ∃ l, pathsLoop (finalSucc st) (.city d) (allNodes h.nodes).length [[.city o, .stop s]] = some l := by
    apply pathsLoop_some (rankOf_lt hg hF)
    · intro p hp x hx hxd
      rw [List.mem_singleton] at hp
      subst hp
      simp only [List.getLast?_cons_cons, List.getLast?_singleton, Option.some.injEq] at hx
      subst hx
      exact Or.inl (rankOf_lt_length hs)
    · simp
  refine ⟨l, by unfold pathsOfStop; rw [hr, hl], ?_, ?_⟩
  · exact pathsLoop_nodup (finalSucc_inj hg hF) _ _ _ (by simp) (by simp) hl
  intro p
  rw [mem_pathsLoop _ _ _ (by simp) hl p]
  simp

theorem mapM_exists {α β : Type} {f : α → Py β} {P : α → β → Prop} : ∀ (l : List α), (∀ a ∈ l, ∃ b, f a = .ok b ∧ P a b) →
    ∃ m, l.mapM f = .ok m ∧ List.Forall₂ P l m := by
  intro l
  induction l with
  | nil => intro _; exact ⟨[], rfl, List.Forall₂.nil⟩
  | cons a t ih =>
    intro hl
    obtain ⟨b, hb, hP⟩ := hl a List.mem_cons_self
    obtain ⟨m, hm, hM⟩ := ih (fun x hx => hl x (List.mem_cons_of_mem _ hx))
    refine ⟨b :: m, ?_, List.Forall₂.cons hP hM⟩
    rw [List.mapM_cons, hb, hm]
    rfl

theorem exists_left_of_forall₂ {α β : Type} {P : α → β → Prop} {l : List α} {m : List β} (h : List.Forall₂ P l m) {b : β}
    (hb : b ∈ m) : ∃ a ∈ l, P a b := by
  induction h with
  | nil => simp at hb
  | cons hP _ ih =>
    rcases List.mem_cons.1 hb with rfl | hb
    · exact ⟨_, List.mem_cons_self, hP⟩
    · obtain ⟨a, ha, h⟩ := ih hb
      exact ⟨a, List.mem_cons_of_mem _ ha, h⟩

/-- what `get_hyperpath_OD` returns -/
theorem hyperpathOD_spec (hg : h.Good) (o d : CityNode K) : ∃ r paths, hyperpathOD h o d = .ok (r, paths) ∧
    buildHyperpath { h with origin := some o, dest := some d } = .ok r ∧
    Dict.keys paths = (stopsAt h.nodes (some o)).filter (fun s => decide (r.label (.stop s) ≠ ⊤)) ∧
    (∀ s l, (s, l) ∈ paths → l ≠ [] ∧ l.Nodup ∧
      ∀ p, p ∈ l ↔ ∃ q, Leads r.succ (.city d) (.stop s) q ∧ p = .city o :: .stop s :: q) := by
  have hg' : HInput.Good { h with origin := some o, dest := some d } := hg
  obtain ⟨st, Q, hF, hb⟩ := buildHyperpath_spec hg'
  set r : HResult K := ⟨finalSucc st, finalLabel { h with origin := some o, dest := some d } st, st.freq⟩ with hr
  have hfin : ∀ s, (r.label (.stop s) ≠ ⊤ ↔ ∃ q, Leads r.succ (.city d) (.stop s) q) := by
    intro s
    have : r.label (.stop s) = st.best (.stop s) + _ := finalLabel_eq st (.stop s)
    rw [this, WithTop.add_ne_top]
    constructor
    · rintro ⟨h1, _⟩
      exact leads_of_best hg' hF rfl _ _ (le_refl _) h1
    · rintro ⟨q, hq⟩
      exact ⟨best_of_leads hg' hF rfl hq, WithTop.coe_ne_top⟩
  let P : StopNode K → StopNode K × List (List (ENode K)) → Prop := fun s e => e.1 = s ∧ e.2.Nodup ∧
      ∀ p, p ∈ e.2 ↔ ∃ q, Leads r.succ (.city d) (.stop s) q ∧ p = .city o :: .stop s :: q
  obtain ⟨m, hm, hM⟩ := mapM_exists (f := pathsEntry h r o d) (P := P) (stopsAt h.nodes (some o)) (by
    intro s hs
    obtain ⟨l, h1, h2, h3⟩ := pathsOfStop_spec (d := d) (o := o) hg' hF (r := r) rfl (mem_allNodes_stop hs)
    refine ⟨(s, l), ?_, rfl, h2, h3⟩
    unfold pathsEntry
    rw [show pathsOfStop h r o d s = .ok l from h1]
    rfl)
  refine ⟨r, m.filter fun p => p.2 ≠ [], ?_, hb, ?_, ?_⟩
  · unfold hyperpathOD
    rw [hb]
    simp only [py_ok_bind]
    rw [hm]
    rfl
  · clear hm
    revert hM
    generalize stopsAt h.nodes (some o) = l
    intro hM
    induction hM with
    | nil => rfl
    | @cons s e l m hP _ ih =>
      obtain ⟨h1, h2, h3⟩ := hP
      have hiff : e.2 ≠ [] ↔ r.label (.stop s) ≠ ⊤ := by
        rw [hfin]
        constructor
        · intro hne
          obtain ⟨p, hp⟩ := List.exists_mem_of_ne_nil _ hne
          obtain ⟨q, hq, _⟩ := (h3 p).1 hp
          exact ⟨q, hq⟩
        · rintro ⟨q, hq⟩
          exact List.ne_nil_of_mem ((h3 _).2 ⟨q, hq, rfl⟩)
      by_cases he : e.2 ≠ []
      · rw [List.filter_cons_of_pos (by simpa using he), List.filter_cons_of_pos (by simpa using hiff.1 he)]
        unfold Dict.keys at ih ⊢
        rw [List.map_cons, ih, h1]
      · rw [List.filter_cons_of_neg (by simpa using he), List.filter_cons_of_neg (by simpa using fun hh => he (hiff.2 hh))]
        exact ih
  · intro s l hl
    rw [List.mem_filter] at hl
    obtain ⟨hl, hne⟩ := hl
    obtain ⟨s', _, h1, h2, h3⟩ := exists_left_of_forall₂ hM hl
    simp only at h1
    subst h1
    exact ⟨by simpa using hne, h2, h3⟩

end Sidermit
