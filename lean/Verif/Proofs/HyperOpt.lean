import Verif.Proofs.Hyperpath

/-!
The hyperpath search computes the cheapest strategies.
-/

set_option linter.unusedSectionVars false

namespace Sidermit

variable {K : Type} [Field K] [LinearOrder K] [IsStrictOrderedRing K] {h : HInput K}

/-- the state at the end of the search -/
structure Final (h : HInput K) (Q : List (EEdge K)) (st : HState K) : Prop where
  inv : SInv h Q st
  comp : ∀ e ∈ h.edges, h.usable e → some e.j ∈ st.done → st.done.idxOf (some e.j) < st.done.idxOf (some e.i) → e ∈ Q
  all : ∀ x ∈ allNodes h.nodes, st.best x ≠ ⊤ → some x ∈ st.done

variable {Q : List (EEdge K)} {st : HState K}

theorem usable_boarding (hg : h.Good) {e : EEdge K} (he : e ∈ h.edges) (hb : e.type = .boarding) : h.usable e := by
  obtain ⟨_, _, s, hs, _⟩ := hg.board e he hb
  obtain ⟨n, hn⟩ := hg.boarded e he hb
  unfold HInput.usable
  rw [hs, hn]
  cases h.origin <;> simp

theorem sum_le_sum_map {α : Type} {l : List α} {f g : α → K} (hfg : ∀ x ∈ l, f x ≤ g x) : (l.map f).sum ≤ (l.map g).sum := by
  induction l with
  | nil => simp
  | cons a t ih =>
    simp only [List.map_cons, List.sum_cons]
    exact add_le_add (hfg a List.mem_cons_self) (ih fun x hx => hfg x (List.mem_cons_of_mem _ hx))

theorem sum_le_of_subset {α : Type} [DecidableEq α] {f : α → K} : ∀ {l m : List α}, l.Nodup → (∀ x ∈ l, x ∈ m) →
    (∀ x ∈ m, 0 ≤ f x) → (l.map f).sum ≤ (m.map f).sum := by
  intro l
  induction l with
  | nil =>
    intro m _ _ h0
    simp only [List.map_nil, List.sum_nil]
    apply List.sum_nonneg
    intro y hy
    obtain ⟨x, hx, rfl⟩ := List.mem_map.1 hy
    exact h0 x hx
  | cons a t ih =>
    intro m hnd hsub h0
    rw [List.nodup_cons] at hnd
    have ha : a ∈ m := hsub a List.mem_cons_self
    have hperm := List.perm_cons_erase ha
    rw [(hperm.map f).sum_eq]
    simp only [List.map_cons, List.sum_cons]
    apply add_le_add_right
    apply ih hnd.2
    · intro x hx
      have hxm := hsub x (List.mem_cons_of_mem _ hx)
      have hxa : x ≠ a := fun hh => hnd.1 (hh ▸ hx)
      exact (List.mem_erase_of_ne hxa).2 hxm
    · intro x hx
      exact h0 x (List.mem_of_mem_erase hx)

/-- no set of lines does better than the label -/
theorem wait_bound (hg : h.Good) (hF : Final h Q st) {s : StopNode K} {l : List (EEdge K × K)} (hne : l ≠ [])
    (hnd : (l.map Prod.fst).Nodup)
    (hl : ∀ p ∈ l, p.1 ∈ h.edges ∧ p.1.type = .boarding ∧ p.1.i = .stop s ∧ 0 < lineFreq p.1)
    (hb : ∀ p ∈ l, st.best p.1.j ≤ (p.2 : WithTop K)) :
    st.best (.stop s) ≤ (((waitCost h.pas s + (l.map fun p => lineFreq p.1 * (legTime h.pas h.dest p.1 + p.2)).sum) /
          (l.map fun p => lineFreq p.1).sum : K) : WithTop K) := by
  have hFpos : 0 < (l.map fun p => lineFreq p.1).sum := by
    have : (l.map fun p => lineFreq p.1).sum = sumF (l.map Prod.fst) := by
      unfold sumF; rw [List.map_map]; rfl
    rw [this]
    apply sumF_pos
    · intro b hb
      obtain ⟨p, hp, rfl⟩ := List.mem_map.1 hb
      exact (hl p hp).2.2.2
    · simpa using hne
  have hnode := hF.inv.node (.stop s)
  have hwpos : 0 < waitCost h.pas s := by
    obtain ⟨p, hp⟩ := List.exists_mem_of_ne_nil l hne
    obtain ⟨h1, h2, h3, _⟩ := hl p hp
    have := (waitAt_pos hg h1 h2).1
    rw [h3] at this
    exact this
  -- what each line gives
  have hline : ∀ p ∈ l, (p.1 ∈ st.suc (.stop s) ∧ st.T h p.1 ≤ legTime h.pas h.dest p.1 + p.2) ∨
      st.best (.stop s) ≤ ((legTime h.pas h.dest p.1 + p.2 : K) : WithTop K) := by
    intro p hp
    obtain ⟨h1, h2, h3, h4⟩ := hl p hp
    have hbp := hb p hp
    have hne : st.best p.1.j ≠ ⊤ := fun hh => by rw [hh] at hbp; exact absurd hbp (by simp)
    have hjd := hF.all _ (hg.ends _ h1).2 hne
    have hc := legTime_nonneg hg h1
    rw [hF.inv.best_eq hjd, WithTop.coe_le_coe] at hbp
    by_cases hlt : st.done.idxOf (some p.1.j) < st.done.idxOf (some p.1.i)
    · have hQ := hF.comp _ h1 (usable_boarding hg h1 h2) hjd hlt
      have hT : st.T h p.1 ≤ legTime h.pas h.dest p.1 + p.2 := by unfold HState.T; linarith
      rcases hnode.rest p.1 hQ h3 h2 h4 with hh | hh
      · exact Or.inl ⟨hh, hT⟩
      · right
        exact (min_le_left _ _).trans (hh.trans (WithTop.coe_le_coe.2 hT))
    · right
      have hle := not_lt.1 hlt
      have hid : some p.1.i ∈ st.done := by
        rw [← List.idxOf_lt_length_iff]
        exact lt_of_le_of_lt hle (List.idxOf_lt_length_of_mem hjd)
      have := hF.inv.mono _ _ hid hjd hle
      rw [h3, hF.inv.best_eq hjd] at this
      refine this.trans (WithTop.coe_le_coe.2 ?_)
      linarith
  -- the label is finite
  have hfin : st.best (.stop s) ≠ ⊤ := by
    obtain ⟨p, hp⟩ := List.exists_mem_of_ne_nil l hne
    rcases hline p hp with ⟨h1, _⟩ | h1
    · have := hnode.lab_eq (List.ne_nil_of_mem h1)
      intro hh
      unfold HState.best at hh
      rw [this] at hh
      have := min_le_left ((((waitAt h.pas (.stop s) + sumFT (st.T h) (st.suc (.stop s))) / sumF (st.suc (.stop s)) : K)) :
        WithTop K) (st.labInf (.stop s))
      rw [hh] at this
      exact absurd this (by simp)
    · intro hh
      rw [hh] at h1
      exact absurd h1 (by simp)
  obtain ⟨μ, hμ⟩ := WithTop.ne_top_iff_exists.1 hfin
  rw [← hμ, WithTop.coe_le_coe, le_div_iff₀ hFpos]
  -- excess of the label over the time of the chosen lines
  have hkey : (l.map fun p => lineFreq p.1 * (μ - (legTime h.pas h.dest p.1 + p.2))).sum ≤ waitCost h.pas s := by
    classical
    let pos := fun p : EEdge K × K => decide (p.1 ∈ st.suc (.stop s) ∧ st.T h p.1 ≤ legTime h.pas h.dest p.1 + p.2)
    have hsplit : ∀ l' : List (EEdge K × K), (∀ p ∈ l', p ∈ l) →
        (l'.map fun p => lineFreq p.1 * (μ - (legTime h.pas h.dest p.1 + p.2))).sum ≤
        ((l'.filter pos).map fun p => lineFreq p.1 * (μ - st.T h p.1)).sum := by
      intro l'
      induction l' with
      | nil => intro _; simp
      | cons p t ih =>
        intro hsub
        have hp := hsub p List.mem_cons_self
        have iht := ih (fun q hq => hsub q (List.mem_cons_of_mem _ hq))
        have hf := (hl p hp).2.2.2
        by_cases hpp : pos p = true
        · rw [List.filter_cons_of_pos hpp]
          simp only [List.map_cons, List.sum_cons]
          apply add_le_add _ iht
          apply mul_le_mul_of_nonneg_left _ hf.le
          have := (of_decide_eq_true hpp).2
          linarith
        · rw [List.filter_cons_of_neg hpp]
          simp only [List.map_cons, List.sum_cons]
          have : lineFreq p.1 * (μ - (legTime h.pas h.dest p.1 + p.2)) ≤ 0 := by
            apply mul_nonpos_of_nonneg_of_nonpos hf.le
            rcases hline p hp with hh | hh
            · exact absurd (decide_eq_true hh) hpp
            · rw [← hμ, WithTop.coe_le_coe] at hh
              linarith
          linarith
    refine (hsplit l (fun _ h => h)).trans ?_
    by_cases hnil : st.suc (.stop s) = []
    · have : l.filter pos = [] := by
        rw [List.filter_eq_nil_iff]
        intro p _ hpp
        have := (of_decide_eq_true hpp).1
        rw [hnil] at this
        simp at this
      rw [this]
      simpa using hwpos.le
    · have hlab := hnode.lab_eq hnil
      have hSpos := hnode.sumF_pos hnil
      set lam : K := (waitAt h.pas (.stop s) + sumFT (st.T h) (st.suc (.stop s))) / sumF (st.suc (.stop s)) with hlam
      have hμl : μ ≤ lam := by
        have : st.best (.stop s) ≤ st.lab (.stop s) := min_le_left _ _
        rw [← hμ, hlab, WithTop.coe_le_coe] at this
        exact this
      have h1 : ((l.filter pos).map fun p => lineFreq p.1 * (μ - st.T h p.1)).sum ≤
          ((l.filter pos).map fun p => lineFreq p.1 * (lam - st.T h p.1)).sum := by
        apply sum_le_sum_map
        intro p hp
        have hf := (hl p (List.mem_of_mem_filter hp)).2.2.2
        apply mul_le_mul_of_nonneg_left _ hf.le
        linarith
      have h2 : ((l.filter pos).map fun p => lineFreq p.1 * (lam - st.T h p.1)).sum =
          (((l.filter pos).map Prod.fst).map fun e => lineFreq e * (lam - st.T h e)).sum := by
        rw [List.map_map]; rfl
      have h3 : (((l.filter pos).map Prod.fst).map fun e => lineFreq e * (lam - st.T h e)).sum ≤
          ((st.suc (.stop s)).map fun e => lineFreq e * (lam - st.T h e)).sum := by
        apply sum_le_of_subset
        · exact hnd.sublist (List.filter_sublist.map _)
        · intro e he
          obtain ⟨p, hp, rfl⟩ := List.mem_map.1 he
          exact (of_decide_eq_true (List.mem_filter.1 hp).2).1
        · intro e he
          obtain ⟨_, _, _, hf, hlt⟩ := hnode.line e he
          rw [hlab, WithTop.coe_lt_coe] at hlt
          exact mul_nonneg hf.le (by linarith)
      have h4 : ((st.suc (.stop s)).map fun e => lineFreq e * (lam - st.T h e)).sum =
          lam * sumF (st.suc (.stop s)) - sumFT (st.T h) (st.suc (.stop s)) := by
        unfold sumF sumFT
        generalize st.suc (.stop s) = m
        clear * -
        induction m with
        | nil => simp
        | cons a t ih =>
          simp only [List.map_cons, List.sum_cons] at ih ⊢
          rw [ih]
          ring
      have h5 : lam * sumF (st.suc (.stop s)) - sumFT (st.T h) (st.suc (.stop s)) = waitCost h.pas s := by
        rw [hlam, div_mul_cancel₀ _ hSpos.ne']
        simp [waitAt]
      rw [h2] at h1
      linarith
  have hexp : (l.map fun p => lineFreq p.1 * (μ - (legTime h.pas h.dest p.1 + p.2))).sum =
      μ * (l.map fun p => lineFreq p.1).sum - (l.map fun p => lineFreq p.1 * (legTime h.pas h.dest p.1 + p.2)).sum := by
    clear * -
    induction l with
    | nil => simp
    | cons a t ih =>
      simp only [List.map_cons, List.sum_cons] at ih ⊢
      rw [ih]
      ring
  rw [hexp] at hkey
  linarith

/-- no strategy is cheaper than the label -/
theorem best_le_strategy (hg : h.Good) (hF : Final h Q st) {x : ENode K} {c : K}
    (hs : Strategy h.edges h.pas h.origin h.dest x c) : st.best x ≤ (c : WithTop K) := by
  induction hs with
  | arrive d hd =>
    refine (min_le_right _ _).trans ((hF.inv.node (.city d)).inf_init.trans ?_)
    unfold initLabel
    rw [hd]
    simp
  | go e he hb hi hj c _ ih =>
    have hne : st.best e.j ≠ ⊤ := fun hh => by rw [hh] at ih; exact absurd ih (by simp)
    have hjd := hF.all _ (hg.ends _ he).2 hne
    have hc := legTime_nonneg hg he
    rw [hF.inv.best_eq hjd, WithTop.coe_le_coe] at ih
    by_cases hlt : st.done.idxOf (some e.j) < st.done.idxOf (some e.i)
    · have hQ := hF.comp _ he ⟨hi, hj⟩ hjd hlt
      refine (min_le_right _ _).trans (((hF.inv.node e.i).inf_le e hQ rfl hb).trans (WithTop.coe_le_coe.2 ?_))
      unfold HState.T
      linarith
    · have hle := not_lt.1 hlt
      have hid : some e.i ∈ st.done := by
        rw [← List.idxOf_lt_length_iff]
        exact lt_of_le_of_lt hle (List.idxOf_lt_length_of_mem hjd)
      have := hF.inv.mono _ _ hid hjd hle
      rw [hF.inv.best_eq hjd] at this
      refine this.trans (WithTop.coe_le_coe.2 ?_)
      linarith
  | wait s l hne hnd hl _ ih => exact wait_bound hg hF hne hnd hl ih

/-- the successors of a node at the end -/
theorem finalSucc_spec (hg : h.Good) (hF : Final h Q st) (x : ENode K) :
    (∀ e ∈ finalSucc st x, e ∈ Q ∧ e.i = x) ∧
    ((∃ d, h.dest = some d ∧ x = .city d ∧ st.best x = 0) ∨
     (st.best x = ⊤ ∧ finalSucc st x = []) ∨
     (∃ e, finalSucc st x = [e] ∧ e.type ≠ .boarding ∧ st.best x = ((st.T h e : K) : WithTop K)) ∨
     (finalSucc st x ≠ [] ∧ (finalSucc st x).Nodup ∧ (∀ b ∈ finalSucc st x, b.type = .boarding ∧ 0 < lineFreq b) ∧
       (∃ s, x = .stop s) ∧
       st.freq x = sumF (finalSucc st x) ∧
       st.best x = (((waitAt h.pas x + sumFT (st.T h) (finalSucc st x)) / sumF (finalSucc st x) : K) : WithTop K))) := by
  have hnode := hF.inv.node x
  unfold finalSucc HState.best
  by_cases hlt : st.lab x < st.labInf x
  · rw [if_pos hlt, min_eq_left hlt.le]
    refine ⟨fun e he => ⟨(hnode.line e he).1, (hnode.line e he).2.1⟩, ?_⟩
    have hne : st.suc x ≠ [] := by
      intro hnil
      rw [hnode.lab_nil hnil] at hlt
      exact absurd hnode.inf_init (not_le.2 hlt)
    right; right; right
    refine ⟨hne, hnode.nodup, fun b hb => ⟨(hnode.line b hb).2.2.1, (hnode.line b hb).2.2.2.1⟩, ?_, hnode.freq_eq,
      hnode.lab_eq hne⟩
    obtain ⟨b, hb⟩ := List.exists_mem_of_ne_nil _ hne
    obtain ⟨hbQ, hbi, hbt, _⟩ := hnode.line b hb
    obtain ⟨s, hs⟩ := (waitAt_pos hg (hF.inv.seen b hbQ).1 hbt).2
    exact ⟨s, hbi ▸ hs⟩
  · rw [if_neg hlt, min_eq_right (not_lt.1 hlt)]
    rcases hnode.inf_att with ⟨h1, h2⟩ | ⟨e, heQ, hei, heb, h1, h2⟩
    · rw [h1, h2]
      refine ⟨by simp, ?_⟩
      unfold initLabel
      split
      · rename_i hd
        cases hdest : h.dest with
        | none => rw [hdest] at hd; cases hd
        | some d =>
          rw [hdest] at hd
          exact Or.inl ⟨d, rfl, Option.some.inj hd, rfl⟩
      · exact Or.inr (Or.inl ⟨rfl, rfl⟩)
    · rw [h1, h2]
      exact ⟨by simpa using ⟨heQ, hei⟩, Or.inr (Or.inr (Or.inl ⟨e, rfl, heb, rfl⟩))⟩

/-- every label is the cost of a strategy -/
theorem strategy_of_best (hg : h.Good) (hF : Final h Q st) : ∀ (n : Nat) (x : ENode K), st.done.idxOf (some x) ≤ n →
    some x ∈ st.done → Strategy h.edges h.pas h.origin h.dest x (st.val x) := by
  intro n
  induction n using Nat.strong_induction_on with
  | _ n ih =>
    intro x hn hx
    obtain ⟨h1, h2⟩ := finalSucc_spec hg hF x
    have hsub : ∀ e ∈ finalSucc st x, e ∈ h.edges ∧ h.usable e ∧ e.i = x ∧
        Strategy h.edges h.pas h.origin h.dest e.j (st.val e.j) := by
      intro e he
      obtain ⟨hQ, hei⟩ := h1 e he
      obtain ⟨g1, g2, g3, g4⟩ := hF.inv.seen e hQ
      rw [hei] at g4
      exact ⟨g1, g2, hei, ih _ (lt_of_lt_of_le g4 hn) e.j (le_refl _) g3⟩
    have hval : ∀ c : K, st.best x = (c : WithTop K) → st.val x = c := by
      intro c hc; unfold HState.val; rw [hc]; rfl
    rcases h2 with ⟨d, hd, rfl, hb⟩ | ⟨hb, _⟩ | ⟨e, hsucc, heb, hb⟩ | ⟨hne, hnd, hl, ⟨s, rfl⟩, _, hb⟩
    · rw [hval 0 hb]
      exact Strategy.arrive d hd
    · exact absurd hb (hF.inv.fin x hx)
    · obtain ⟨g1, g2, g3, g4⟩ := hsub e (by rw [hsucc]; simp)
      rw [hval _ hb, ← g3]
      exact Strategy.go e g1 heb g2.1 g2.2 _ g4
    · rw [hval _ hb]
      have := Strategy.wait (edges := h.edges) (pas := h.pas) (origin := h.origin) (dest := h.dest) s
        ((finalSucc st (.stop s)).map fun b => (b, st.val b.j)) (by simpa using hne)
        (by rw [List.map_map]; simpa [Function.comp_def] using hnd) (by
          intro p hp
          obtain ⟨b, hb, rfl⟩ := List.mem_map.1 hp
          obtain ⟨g1, g2, g3, g4⟩ := hsub b hb
          exact ⟨g1, (hl b hb).1, g3, (hl b hb).2⟩) (by
          intro p hp
          obtain ⟨b, hb, rfl⟩ := List.mem_map.1 hp
          exact (hsub b hb).2.2.2)
      rw [List.map_map, List.map_map] at this
      exact this

theorem mainLoop_final (hg : h.Good) : ∃ st Q, mainLoop h = .ok st ∧ Final h Q st := by
  obtain ⟨st, Q, h1, h2, h3, h4⟩ := mainLoop_inv hg
  exact ⟨st, Q, h1, h2, h3, h4⟩

theorem finalLabel_eq (st : HState K) (x : ENode K) : finalLabel h st x = st.best x + ((accessTime h.pas h.origin x : K) : WithTop K) := by
  have hl : (if st.lab x < st.labInf x then st.lab x else st.labInf x) = st.best x := by
    unfold HState.best
    split
    · rename_i hlt; rw [min_eq_left hlt.le]
    · rename_i hlt; rw [min_eq_right (not_lt.1 hlt)]
  unfold finalLabel accessTime
  simp only [hl]
  cases x with
  | city c => simp
  | route r => simp
  | stop s =>
    simp only
    split
    · rfl
    · simp

/-- the search ends normally; what it returns -/
theorem buildHyperpath_spec (hg : h.Good) : ∃ st Q, Final h Q st ∧
    buildHyperpath h = .ok ⟨finalSucc st, finalLabel h st, st.freq⟩ := by
  obtain ⟨st, Q, h1, h2⟩ := mainLoop_final hg
  refine ⟨st, Q, h2, ?_⟩
  unfold buildHyperpath
  rw [h1]
  simp only [py_ok_bind]
  unfold finish
  have : ∀ l : List (StopNode K), ∃ m, l.mapM (fun s : StopNode K => pyDiv (s.mode.tat / 60 * h.pas.pa) h.pas.pv) = .ok m := by
    intro l
    induction l with
    | nil => exact ⟨[], rfl⟩
    | cons a t ih =>
      obtain ⟨m, hm⟩ := ih
      rw [List.mapM_cons, hm]
      simp only [pyDiv, hg.pv.ne', if_false, py_ok_bind]
      exact ⟨_, rfl⟩
  obtain ⟨m, hm⟩ := this (stopsAt h.nodes h.origin)
  rw [hm]
  rfl

end Sidermit
