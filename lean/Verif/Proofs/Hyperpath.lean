import Verif.Proofs.HyperNode
import Mathlib.Data.List.Induction
import Mathlib.Data.List.Perm.Subperm

/-!
The hyperpath search: invariant of the loops.
-/

set_option linter.unusedSectionVars false

namespace Sidermit

variable {K : Type} [Field K] [LinearOrder K] [IsStrictOrderedRing K]

/-- the label of a processed node as a number -/
def HState.val (st : HState K) (x : ENode K) : K := (st.best x).untopD 0

/-- the cost of continuing along an edge -/
def HState.T (h : HInput K) (st : HState K) (e : EEdge K) : K := legTime h.pas h.dest e + st.val e.j

/-- what the search needs -/
def HInput.Good (h : HInput K) : Prop := Searchable (allNodes h.nodes) h.edges h.pas

variable {h : HInput K}

theorem legTime_nonneg (hg : h.Good) {e : EEdge K} (he : e ∈ h.edges) : 0 ≤ legTime h.pas h.dest e := by
  have ht := hg.time e he
  unfold legTime
  split
  · exact div_nonneg (mul_nonneg ht hg.pa) hg.pv.le
  · split
    · exact le_refl _
    · exact ht
  · exact ht

theorem edgeTime_eq (hg : h.Good) {e : EEdge K} (he : e ∈ h.edges) : edgeTime h e e.j = .ok (legTime h.pas h.dest e) := by
  unfold edgeTime legTime
  cases ht : e.type with
  | access => simp [pyDiv, hg.pv.ne']
  | boarding => rfl
  | route => rfl
  | alighting =>
    obtain ⟨s, hs⟩ := hg.alight e he ht
    simp only [hs]
    split <;> rfl

theorem edgeTime_boarding (hg : h.Good) {e : EEdge K} (he : e ∈ h.edges) (hb : e.type = .boarding) (x : ENode K) :
    edgeTime h e x = .ok (legTime h.pas h.dest e) ∧ legTime h.pas h.dest e = 0 := by
  unfold edgeTime legTime
  rw [hb]
  exact ⟨rfl, (hg.board e he hb).1⟩

/-- the invariant; `Q` are the edges looked at so far -/
structure SInv (h : HInput K) (Q : List (EEdge K)) (st : HState K) : Prop where
  node : ∀ i, NodeInv h Q (st.T h) i (st.lab i) (st.labInf i) (st.suc i) (st.sucInf i) (st.freq i)
  seen : ∀ e ∈ Q, e ∈ h.edges ∧ h.usable e ∧ some e.j ∈ st.done ∧ st.done.idxOf (some e.j) < st.done.idxOf (some e.i)
  fin : ∀ x, some x ∈ st.done → st.best x ≠ ⊤
  mono : ∀ x y, some x ∈ st.done → some y ∈ st.done → st.done.idxOf (some x) ≤ st.done.idxOf (some y) →
    st.best x ≤ st.best y
  low : ∀ x y, some x ∈ st.done → some y ∉ st.done → y ∈ allNodes h.nodes → st.best x ≤ st.best y
  nodup : (st.done.filterMap id).Nodup
  mem : ∀ x, some x ∈ st.done → x ∈ allNodes h.nodes

theorem SInv.best_eq {Q : List (EEdge K)} {st : HState K} (hi : SInv h Q st) {x : ENode K} (hx : some x ∈ st.done) :
    st.best x = (st.val x : WithTop K) := by
  have := hi.fin x hx
  unfold HState.val
  cases hb : st.best x with
  | top => exact absurd hb this
  | coe v => rfl

theorem verifyLoop_ok {e : EEdge K} {st : HState K}
    (hb : ∀ b ∈ st.suc e.i, b ≠ e → ∃ tb, edgeTime h b e.j = .ok tb ∧ st.best b.j + (tb : WithTop K) < st.lab e.i) :
    ∀ fuel k, verifyLoop h e fuel k st = .ok st := by
  intro fuel
  induction fuel with
  | zero => intro k; rfl
  | succ n ih =>
    intro k
    unfold verifyLoop
    cases hk : (st.suc e.i)[k]? with
    | none => rfl
    | some b =>
      simp only
      have hmem := List.mem_of_getElem? hk
      have hc : checkLine h e b st = .ok st := by
        unfold checkLine
        split
        · rfl
        · rename_i hne
          obtain ⟨tb, h1, h2⟩ := hb b hmem hne
          rw [h1]
          simp only [py_ok_bind]
          rw [if_neg (not_le.2 h2)]
      rw [hc]
      simp only [py_ok_bind]
      exact ih (k + 1)

/-- the state changes only at node `i` and keeps `S` -/
structure OnlyAt (i : ENode K) (st st' : HState K) : Prop where
  lab : ∀ x, x ≠ i → st'.lab x = st.lab x
  labInf : ∀ x, x ≠ i → st'.labInf x = st.labInf x
  suc : ∀ x, x ≠ i → st'.suc x = st.suc x
  sucInf : ∀ x, x ≠ i → st'.sucInf x = st.sucInf x
  freq : ∀ x, x ≠ i → st'.freq x = st.freq x
  done : st'.done = st.done

theorem OnlyAt.refl (i : ENode K) (st : HState K) : OnlyAt i st st := ⟨by simp, by simp, by simp, by simp, by simp, rfl⟩

theorem OnlyAt.best {i : ENode K} {st st' : HState K} (ho : OnlyAt i st st') {x : ENode K} (hx : x ≠ i) :
    st'.best x = st.best x := by
  unfold HState.best
  rw [ho.lab x hx, ho.labInf x hx]

/-- putting together: a step that changes one node keeps the invariant -/
theorem SInv.update {Q : List (EEdge K)} {st st' : HState K} (hi : SInv h Q st) {e : EEdge K} (he : e ∈ h.edges)
    (hu : h.usable e) (hj : some e.j ∈ st.done) (hni : some e.i ∉ st.done) (ho : OnlyAt e.i st st')
    (hnode : NodeInv h (Q ++ [e]) (st.T h) e.i (st'.lab e.i) (st'.labInf e.i) (st'.suc e.i) (st'.sucInf e.i) (st'.freq e.i))
    (hlow : ∀ x, some x ∈ st.done → st.best x ≤ st'.best e.i) : SInv h (Q ++ [e]) st' := by
  have hne : ∀ x, some x ∈ st.done → x ≠ e.i := by
    rintro x hx rfl; exact hni hx
  have hT : ∀ y ∈ Q ++ [e], st'.T h y = st.T h y := by
    intro y hy
    unfold HState.T HState.val
    rw [ho.best]
    rcases List.mem_append.1 hy with hy | hy
    · exact hne _ (hi.seen y hy).2.2.1
    · rw [List.mem_singleton] at hy; subst hy; exact hne _ hj
  constructor
  · intro i
    apply NodeInv.congr _ hT
    by_cases hie : i = e.i
    · subst hie; exact hnode
    · rw [ho.lab i hie, ho.labInf i hie, ho.suc i hie, ho.sucInf i hie, ho.freq i hie]
      exact (hi.node i).skip (fun h => hie h.symm)
  · intro y hy
    rw [ho.done]
    rcases List.mem_append.1 hy with hy | hy
    · exact hi.seen y hy
    · rw [List.mem_singleton] at hy
      subst hy
      refine ⟨he, hu, hj, ?_⟩
      rw [List.idxOf_eq_length hni]
      exact List.idxOf_lt_length_of_mem hj
  · intro x hx
    rw [ho.done] at hx
    rw [ho.best (hne x hx)]
    exact hi.fin x hx
  · intro x y hx hy hxy
    rw [ho.done] at hx hy hxy
    rw [ho.best (hne x hx), ho.best (hne y hy)]
    exact hi.mono x y hx hy hxy
  · intro x y hx hy hyV
    rw [ho.done] at hx hy
    rw [ho.best (hne x hx)]
    by_cases hye : y = e.i
    · subst hye; exact hlow x hx
    · rw [ho.best hye]; exact hi.low x y hx hy hyV
  · rw [ho.done]; exact hi.nodup
  · rw [ho.done]; exact hi.mem

theorem waitAt_pos (hg : h.Good) {e : EEdge K} (he : e ∈ h.edges) (hb : e.type = .boarding) :
    0 < waitAt h.pas e.i ∧ ∃ s, e.i = .stop s := by
  obtain ⟨_, _, s, hs, hth⟩ := hg.board e he hb
  rw [hs]
  exact ⟨div_pos (mul_pos hth hg.pw) hg.pv, s, rfl⟩

theorem initLabel_stop (d : Option (CityNode K)) (s : StopNode K) : initLabel d (.stop s) = ⊤ := by
  unfold initLabel
  rw [if_neg]
  cases d <;> simp

/-- one edge -/
theorem relaxEdge_inv (hg : h.Good) {Q : List (EEdge K)} {st : HState K} (hi : SInv h Q st) {e : EEdge K}
    (he : e ∈ h.edges) (hu : h.usable e) (hj : some e.j ∈ st.done) (hni : some e.i ∉ st.done) (heQ : e ∉ Q)
    (hmax : ∀ x, some x ∈ st.done → st.best x ≤ (st.val e.j : WithTop K)) :
    ∃ st', relaxEdge h (st.val e.j) st e = .ok st' ∧ SInv h (Q ++ [e]) st' ∧ OnlyAt e.i st st' := by
  have hc := legTime_nonneg hg he
  have hne : ∀ x, some x ∈ st.done → x ≠ e.i := by
    rintro x hx rfl; exact hni hx
  have hnode := hi.node e.i
  have hTe : legTime h.pas h.dest e + st.val e.j = st.T h e := rfl
  have hvT : (st.val e.j : WithTop K) ≤ ((st.T h e : K) : WithTop K) := by
    rw [WithTop.coe_le_coe, ← hTe]; linarith
  unfold relaxEdge
  rw [edgeTime_eq hg he]
  simp only [py_ok_bind]
  rw [hTe]
  -- the verification does nothing when the lines are good
  have hver : ∀ st', SInv h (Q ++ [e]) st' → OnlyAt e.i st st' →
      verifyLoop h e (st'.suc e.i).length 0 st' = .ok st' := by
    intro st' hi' ho'
    apply verifyLoop_ok
    intro b hb _
    obtain ⟨hbQ, hbi, hbt, hbf, hlt⟩ := (hi'.node e.i).line b hb
    obtain ⟨hbE, _, hbj, _⟩ := hi'.seen b hbQ
    obtain ⟨h1, h2⟩ := edgeTime_boarding hg hbE hbt e.j
    refine ⟨_, h1, ?_⟩
    rw [hi'.best_eq hbj, ← WithTop.coe_add, add_comm]
    exact hlt
  cases hf : e.f with
  | none =>
    have hb : e.type ≠ .boarding := (hg.finite e he).1 hf
    have hline : ∀ s, relaxLine h e (st.T h e) s = .ok s := by
      intro s; unfold relaxLine; rw [hf]
    simp only [hline, py_ok_bind]
    unfold relaxInf
    by_cases hlt : ((st.T h e : K) : WithTop K) < st.labInf e.i
    · rw [if_pos ⟨hf, hlt⟩]
      have ho : OnlyAt e.i st { st with
          sucInf := Function.update st.sucInf e.i (some e), labInf := Function.update st.labInf e.i ((st.T h e : K) : WithTop K) } :=
        ⟨fun _ _ => rfl, fun x hx => Function.update_of_ne hx _ _, fun _ _ => rfl, fun x hx => Function.update_of_ne hx _ _,
          fun _ _ => rfl, rfl⟩
      have hinv := hi.update he hu hj hni ho
        (by simp only [Function.update_self]; exact hnode.inf_update hb rfl hlt) (by
          intro x hx
          simp only [HState.best, Function.update_self]
          rw [le_min_iff]
          refine ⟨(hi.low x e.i hx hni (hg.ends e he).1).trans (min_le_left _ _), (hmax x hx).trans hvT⟩)
      exact ⟨_, hver _ hinv ho, hinv, ho⟩
    · rw [if_neg (fun h => hlt h.2)]
      have ho := OnlyAt.refl e.i st
      have hinv := hi.update he hu hj hni ho (hnode.inf_keep hb (not_lt.1 hlt)) (fun x hx => hi.low x e.i hx hni (hg.ends e he).1)
      exact ⟨_, hver _ hinv ho, hinv, ho⟩
  | some f =>
    have hb : e.type = .boarding := by
      by_contra hb
      rw [(hg.finite e he).2 hb] at hf
      cases hf
    have hfe : lineFreq e = f := by unfold lineFreq; rw [hf]; rfl
    have hf0 : 0 ≤ f := hfe ▸ (hg.board e he hb).2.1
    have hin : relaxInf e (st.T h e) st = st := by
      unfold relaxInf; rw [if_neg (fun h => by rw [hf] at h; cases h.1)]
    rw [hin]
    obtain ⟨hw, s, hs⟩ := waitAt_pos hg he hb
    have hinit : initLabel h.dest e.i = ⊤ := by rw [hs]; exact initLabel_stop _ _
    unfold relaxLine
    rw [hf]
    simp only
    -- the line is not added
    have hkeep : (0 < lineFreq e → st.lab e.i ≤ ((st.T h e : K) : WithTop K)) →
        SInv h (Q ++ [e]) st ∧ verifyLoop h e (st.suc e.i).length 0 st = .ok st := by
      intro hle
      have ho := OnlyAt.refl e.i st
      have hinv := hi.update he hu hj hni ho (hnode.line_keep hb hle) (fun x hx => hi.low x e.i hx hni (hg.ends e he).1)
      exact ⟨hinv, hver _ hinv ho⟩
    by_cases hlt : ((st.T h e : K) : WithTop K) < st.lab e.i
    · rw [if_pos hlt]
      have hth : thetaOf e.i = .ok s.mode.theta := by rw [hs]; rfl
      rw [hth]
      simp only [py_ok_bind]
      by_cases hfz : f = 0
      · rw [if_neg (fun h => h.2.2 hfz), if_neg (fun h => h hfz)]
        obtain ⟨h1, h2⟩ := hkeep (fun hp => by rw [hfe, hfz] at hp; exact absurd hp (lt_irrefl _))
        exact ⟨st, h2, h1, OnlyAt.refl _ _⟩
      · have hfpos : 0 < f := lt_of_le_of_ne hf0 (Ne.symm hfz)
        have hearlier : ∀ b ∈ st.suc e.i, st.T h b ≤ st.T h e := by
          intro b hb'
          obtain ⟨hbQ, _, hbt, _, _⟩ := hnode.line b hb'
          obtain ⟨hbE, _, hbj, _⟩ := hi.seen b hbQ
          have h1 := (edgeTime_boarding hg hbE hbt e.j).2
          have h2 := hmax _ hbj
          rw [hi.best_eq hbj, WithTop.coe_le_coe] at h2
          unfold HState.T
          rw [h1]
          linarith
        -- adding the line with label `l`
        have hadd : ∀ l : K, l = (waitAt h.pas e.i + sumFT (st.T h) (st.suc e.i ++ [e])) / sumF (st.suc e.i ++ [e]) →
            SInv h (Q ++ [e]) (putLine st e l f) ∧ OnlyAt e.i st (putLine st e l f) := by
          intro l hl
          obtain ⟨h1, h2, h3⟩ := hnode.line_add hb rfl (hfe ▸ hfpos) heQ hlt hw hearlier hl
          have ho : OnlyAt e.i st (putLine st e l f) :=
            ⟨fun x hx => Function.update_of_ne hx _ _, fun _ _ => rfl, fun x hx => Function.update_of_ne hx _ _,
              fun _ _ => rfl, fun x hx => Function.update_of_ne hx _ _, rfl⟩
          refine ⟨hi.update he hu hj hni ho ?_ ?_, ho⟩
          · simp only [putLine, Function.update_self]
            rw [← hfe]
            exact h1
          · intro x hx
            simp only [HState.best, putLine, Function.update_self]
            rw [le_min_iff]
            refine ⟨?_, (hi.low x e.i hx hni (hg.ends e he).1).trans (min_le_right _ _)⟩
            exact ((hmax x hx).trans hvT).trans (WithTop.coe_le_coe.2 h3.le)
        by_cases hfirst : st.freq e.i = 0 ∧ st.lab e.i = ⊤ ∧ f ≠ 0
        · rw [if_pos hfirst]
          have hnil : st.suc e.i = [] := by
            by_contra hne
            have := hnode.sumF_pos hne
            rw [← hnode.freq_eq, hfirst.1] at this
            exact lt_irrefl _ this
          have hwait : waitAt h.pas e.i = s.mode.theta * h.pas.pw / h.pas.pv := by rw [hs]; rfl
          unfold firstLine
          simp only [pyDiv, hg.pv.ne', hfz, if_false, py_ok_bind]
          obtain ⟨h1, h2⟩ := hadd ((s.mode.theta * h.pas.pw / h.pas.pv + f * st.T h e) / f) (by
            rw [hnil, hwait]
            simp [sumF, sumFT, hfe])
          exact ⟨_, hver _ h1 h2, h1, h2⟩
        · rw [if_neg hfirst, if_pos hfz]
          have hne : st.suc e.i ≠ [] := by
            intro hnil
            apply hfirst
            refine ⟨?_, ?_, hfz⟩
            · rw [hnode.freq_eq, hnil]; rfl
            · rw [hnode.lab_nil hnil, hinit]
          have hlab := hnode.lab_eq hne
          have hpos := hnode.sumF_pos hne
          unfold moreLine
          simp only [hlab]
          have hden : st.freq e.i + f ≠ 0 := by rw [hnode.freq_eq]; exact (add_pos hpos hfpos).ne'
          simp only [pyDiv, hden, if_false, py_ok_bind]
          obtain ⟨h1, h2⟩ := hadd ((st.freq e.i * ((waitAt h.pas e.i + sumFT (st.T h) (st.suc e.i)) / sumF (st.suc e.i)) +
              f * st.T h e) / (st.freq e.i + f)) (by
            rw [hnode.freq_eq, sumFT_append, sumF_append, hfe, mul_div_cancel₀ _ hpos.ne', add_assoc])
          exact ⟨_, hver _ h1 h2, h1, h2⟩
    · rw [if_neg hlt]
      obtain ⟨h1, h2⟩ := hkeep (fun _ => not_lt.1 hlt)
      exact ⟨st, h2, h1, OnlyAt.refl _ _⟩

/-- all the edges of a processed node -/
theorem relaxEdges_inv (hg : h.Good) {j : ENode K} {v : K} : ∀ (L Q : List (EEdge K)) (st : HState K), SInv h Q st →
    L.Nodup → (∀ e ∈ L, e ∉ Q ∧ e ∈ h.edges ∧ h.usable e ∧ e.j = j ∧ some e.i ∉ st.done) → some j ∈ st.done →
    (∀ x, some x ∈ st.done → st.best x ≤ (v : WithTop K)) → st.val j = v →
    ∃ st', L.foldlM (relaxEdge h v) st = .ok st' ∧ SInv h (Q ++ L) st' ∧ st'.done = st.done := by
  intro L
  induction L with
  | nil =>
    intro Q st hi _ _ _ _ _
    exact ⟨st, rfl, by simpa using hi, rfl⟩
  | cons e L ih =>
    intro Q st hi hnd hL hj hmax hv
    obtain ⟨heQ, he, hu, hej, hni⟩ := hL e List.mem_cons_self
    rw [List.nodup_cons] at hnd
    obtain ⟨st1, h1, h2, ho⟩ := relaxEdge_inv hg hi he hu (hej ▸ hj) hni heQ (by rw [hej, hv]; exact hmax)
    rw [hej, hv] at h1
    have hne : ∀ x, some x ∈ st.done → x ≠ e.i := by
      rintro x hx rfl; exact hni hx
    obtain ⟨st2, h3, h4, h5⟩ := ih (Q ++ [e]) st1 h2 hnd.2 (by
        intro b hb
        obtain ⟨g1, g2, g3, g4, g5⟩ := hL b (List.mem_cons_of_mem _ hb)
        refine ⟨?_, g2, g3, g4, by rw [ho.done]; exact g5⟩
        rw [List.mem_append, List.mem_singleton, not_or]
        exact ⟨g1, fun hbe => hnd.1 (hbe ▸ hb)⟩) (by rw [ho.done]; exact hj) (by
        intro x hx
        rw [ho.done] at hx
        rw [ho.best (hne x hx)]
        exact hmax x hx) (by
        unfold HState.val
        rw [ho.best (hne j hj)]
        exact hv)
    refine ⟨st2, ?_, by simpa using h4, h5.trans ho.done⟩
    rw [List.foldlM_cons, h1]
    exact h3

/-- the search of the minimum -/
theorem pick_spec (st : HState K) (V : List (ENode K)) :
    (pick V st = (none, ⊤) ∧ ∀ x ∈ V, some x ∉ st.done → st.best x = ⊤) ∨
    (∃ j ∈ V, pick V st = (some j, st.best j) ∧ some j ∉ st.done ∧ st.best j ≠ ⊤ ∧
      ∀ x ∈ V, some x ∉ st.done → st.best j ≤ st.best x) := by
  unfold pick
  induction V using List.reverseRecOn with
  | nil => exact Or.inl ⟨rfl, by simp⟩
  | append_singleton V y ih =>
    rw [List.foldl_append]
    simp only [List.foldl_cons, List.foldl_nil]
    rcases ih with ⟨h1, h2⟩ | ⟨j, hj, h1, h2, h3, h4⟩
    · rw [h1]
      unfold pickStep
      by_cases hc : some y ∉ st.done ∧ st.best y < ⊤
      · rw [if_pos hc]
        refine Or.inr ⟨y, by simp, rfl, hc.1, hc.2.ne, ?_⟩
        intro x hx hxd
        rcases List.mem_append.1 hx with hx | hx
        · rw [h2 x hx hxd]; exact le_top
        · rw [List.mem_singleton] at hx; subst hx; exact le_refl _
      · rw [if_neg hc]
        refine Or.inl ⟨rfl, ?_⟩
        intro x hx hxd
        rcases List.mem_append.1 hx with hx | hx
        · exact h2 x hx hxd
        · rw [List.mem_singleton] at hx
          subst hx
          by_contra ht
          exact hc ⟨hxd, lt_top_iff_ne_top.2 ht⟩
    · rw [h1]
      unfold pickStep
      by_cases hc : some y ∉ st.done ∧ st.best y < st.best j
      · rw [if_pos hc]
        refine Or.inr ⟨y, by simp, rfl, hc.1, (lt_of_lt_of_le hc.2 le_top).ne, ?_⟩
        intro x hx hxd
        rcases List.mem_append.1 hx with hx | hx
        · exact hc.2.le.trans (h4 x hx hxd)
        · rw [List.mem_singleton] at hx; subst hx; exact le_refl _
      · rw [if_neg hc]
        refine Or.inr ⟨j, List.mem_append_left _ hj, rfl, h2, h3, ?_⟩
        intro x hx hxd
        rcases List.mem_append.1 hx with hx | hx
        · exact h4 x hx hxd
        · rw [List.mem_singleton] at hx
          subst hx
          exact not_lt.1 (fun hlt => hc ⟨hxd, hlt⟩)

/-- between two passes of the main loop -/
structure OInv (h : HInput K) (k : Nat) (Q : List (EEdge K)) (st : HState K) : Prop where
  inv : SInv h Q st
  comp : ∀ e ∈ h.edges, h.usable e → some e.j ∈ st.done → st.done.idxOf (some e.j) < st.done.idxOf (some e.i) → e ∈ Q
  prog : (st.done.filterMap id).length = k ∨ ∀ x ∈ allNodes h.nodes, some x ∉ st.done → st.best x = ⊤

theorem idxOf_append_of_mem {α : Type} [BEq α] [LawfulBEq α] {l : List α} {a : α} (x : α) (ha : a ∈ l) :
    (l ++ [x]).idxOf a = l.idxOf a := List.idxOf_append_of_mem ha

theorem idxOf_le_append {α : Type} [BEq α] [LawfulBEq α] (l : List α) (a x : α) : l.idxOf a ≤ (l ++ [x]).idxOf a := by
  by_cases ha : a ∈ l
  · rw [idxOf_append_of_mem x ha]
  · rw [List.idxOf_eq_length ha, List.idxOf_append_of_notMem ha]
    omega

theorem SInv.append {Q : List (EEdge K)} {st : HState K} (hi : SInv h Q st) (o : Option (ENode K))
    (ho : ∀ j, o = some j → j ∈ allNodes h.nodes ∧ some j ∉ st.done ∧ st.best j ≠ ⊤ ∧
      ∀ x ∈ allNodes h.nodes, some x ∉ st.done → st.best j ≤ st.best x) :
    SInv h Q { st with done := st.done ++ [o] } := by
  have hmem : ∀ x : ENode K, some x ∈ st.done ++ [o] ↔ some x ∈ st.done ∨ some x = o := by
    intro x; rw [List.mem_append, List.mem_singleton]
  constructor
  · exact hi.node
  · intro e he
    obtain ⟨h1, h2, h3, h4⟩ := hi.seen e he
    refine ⟨h1, h2, List.mem_append_left _ h3, ?_⟩
    show List.idxOf _ (st.done ++ [o]) < List.idxOf _ (st.done ++ [o])
    rw [idxOf_append_of_mem _ h3]
    exact lt_of_lt_of_le h4 (idxOf_le_append _ _ _)
  · intro x hx
    rcases (hmem x).1 hx with hx | hx
    · exact hi.fin x hx
    · exact (ho x hx.symm).2.2.1
  · intro x y hx hy hxy
    replace hxy : (st.done ++ [o]).idxOf (some x) ≤ (st.done ++ [o]).idxOf (some y) := hxy
    show st.best x ≤ st.best y
    rcases (hmem x).1 hx with hx | hx
    · rcases (hmem y).1 hy with hy | hy
      · rw [idxOf_append_of_mem _ hx, idxOf_append_of_mem _ hy] at hxy
        exact hi.mono x y hx hy hxy
      · obtain ⟨g1, g2, _⟩ := ho y hy.symm
        exact hi.low x y hx g2 g1
    · obtain ⟨g1, g2, _⟩ := ho x hx.symm
      rcases (hmem y).1 hy with hy | hy
      · rw [idxOf_append_of_mem _ hy, List.idxOf_append_of_notMem g2] at hxy
        have := List.idxOf_lt_length_of_mem hy
        omega
      · have : x = y := Option.some.inj (hx.trans hy.symm)
        rw [this]
  · intro x y hx hy hyV
    have hy' : some y ∉ st.done := fun hh => hy ((hmem y).2 (Or.inl hh))
    rcases (hmem x).1 hx with hx | hx
    · exact hi.low x y hx hy' hyV
    · exact (ho x hx.symm).2.2.2 y hyV hy'
  · show ((st.done ++ [o]).filterMap id).Nodup
    rw [List.filterMap_append]
    cases ho' : o with
    | none => simpa using hi.nodup
    | some j =>
      obtain ⟨_, g2, _⟩ := ho j ho'
      simp only [List.filterMap_cons, List.filterMap_nil, id]
      rw [List.nodup_append]
      refine ⟨hi.nodup, by simp, ?_⟩
      rintro a ha b hb rfl
      rw [List.mem_singleton] at hb
      subst hb
      rw [List.mem_filterMap] at ha
      obtain ⟨c, hc, hc'⟩ := ha
      rw [show c = some _ from hc'] at hc
      exact g2 hc
  · intro x hx
    rcases (hmem x).1 hx with hx | hx
    · exact hi.mem x hx
    · exact (ho x hx.symm).1

theorem popStep_inv (hg : h.Good) {k : Nat} {Q : List (EEdge K)} {st : HState K} (hi : OInv h k Q st) (n : Nat) :
    ∃ st' Q', popStep h st n = .ok st' ∧ OInv h (k + 1) Q' st' := by
  unfold popStep
  rcases pick_spec st (allNodes h.nodes) with ⟨h1, h2⟩ | ⟨j, hj, h1, h2, h3, h4⟩
  · rw [h1]
    refine ⟨_, Q, rfl, hi.inv.append none (by simp), ?_, Or.inr ?_⟩
    · intro e he hu hej hlt
      have hej' : some e.j ∈ st.done := by
        rcases List.mem_append.1 hej with h | h
        · exact h
        · simp at h
      apply hi.comp e he hu hej'
      replace hlt : (st.done ++ [none]).idxOf (some e.j) < (st.done ++ [none]).idxOf (some e.i) := hlt
      rw [idxOf_append_of_mem _ hej'] at hlt
      by_cases hei : some e.i ∈ st.done
      · rwa [idxOf_append_of_mem _ hei] at hlt
      · rw [List.idxOf_eq_length hei]
        exact List.idxOf_lt_length_of_mem hej'
    · intro x hx hxd
      exact h2 x hx (fun hh => hxd (List.mem_append_left _ hh))
  · rw [h1]
    simp only
    have happ := hi.inv.append (some j) (by
      rintro x hx
      cases hx
      exact ⟨hj, h2, h3, h4⟩)
    obtain ⟨v, hv⟩ := WithTop.ne_top_iff_exists.1 h3
    unfold process
    rw [← hv]
    simp only
    set st1 : HState K := { st with done := st.done ++ [some j] } with hst1
    have hbest : st1.best = st.best := rfl
    have hvj : st1.val j = v := by
      unfold HState.val
      rw [hbest, ← hv]
      rfl
    have hdone : st1.done = st.done ++ [some j] := rfl
    have hmemE : ∀ e ∈ inEdges h st1 j, e ∈ h.edges ∧ h.usable e ∧ some e.i ∉ st1.done ∧ e.j = j := by
      intro e he
      unfold inEdges at he
      rw [List.mem_filter] at he
      have := of_decide_eq_true he.2
      exact ⟨he.1, this.1, this.2.1, this.2.2⟩
    obtain ⟨st2, g1, g2, g3⟩ := relaxEdges_inv hg (j := j) (v := v) (inEdges h st1 j) Q st1 happ
      (hg.edges_nodup.of_map.filter _) (by
        intro e he
        obtain ⟨a1, a2, a3, a4⟩ := hmemE e he
        refine ⟨?_, a1, a2, a4, a3⟩
        intro heQ
        have := (hi.inv.seen e heQ).2.2.1
        rw [a4] at this
        exact h2 this) (by rw [hdone]; simp) (by
        intro x hx
        rw [hbest]
        rw [hdone, List.mem_append, List.mem_singleton] at hx
        rcases hx with hx | hx
        · rw [hv]; exact hi.inv.low x j hx h2 hj
        · rw [Option.some.inj hx, hv]) hvj
    refine ⟨st2, Q ++ inEdges h st1 j, g1, g2, ?_, ?_⟩
    · intro e he hu hej hlt
      rw [g3, hdone] at hej hlt
      by_cases hejd : some e.j ∈ st.done
      · apply List.mem_append_left
        apply hi.comp e he hu hejd
        rw [idxOf_append_of_mem _ hejd] at hlt
        by_cases hei : some e.i ∈ st.done
        · rwa [idxOf_append_of_mem _ hei] at hlt
        · rw [List.idxOf_eq_length hei]
          exact List.idxOf_lt_length_of_mem hejd
      · apply List.mem_append_right
        have hejj : e.j = j := by
          rw [List.mem_append, List.mem_singleton] at hej
          rcases hej with h | h
          · exact absurd h hejd
          · exact Option.some.inj h
        unfold inEdges
        rw [List.mem_filter]
        refine ⟨he, decide_eq_true ⟨hu, ?_, hejj⟩⟩
        rw [hdone, List.mem_append, List.mem_singleton, not_or]
        constructor
        · intro hei
          rw [idxOf_append_of_mem _ hei, List.idxOf_append_of_notMem hejd] at hlt
          have := List.idxOf_lt_length_of_mem hei
          omega
        · intro hei
          rw [hei, hejj] at hlt
          exact lt_irrefl _ hlt
    · rcases hi.prog with hp | hp
      · left
        rw [g3, hdone, List.filterMap_append, List.length_append, hp]
        rfl
      · exact absurd (hp j hj h2) h3

theorem best_init (i : ENode K) : (initState h.dest).best i = initLabel h.dest i := by
  simp [HState.best, initState, initLabel]

theorem mainLoop_inv (hg : h.Good) : ∃ st Q, mainLoop h = .ok st ∧ SInv h Q st ∧
    (∀ e ∈ h.edges, h.usable e → some e.j ∈ st.done → st.done.idxOf (some e.j) < st.done.idxOf (some e.i) → e ∈ Q) ∧
    (∀ x ∈ allNodes h.nodes, st.best x ≠ ⊤ → some x ∈ st.done) := by
  have hloop : ∀ n, ∃ st Q, (List.range n).foldlM (popStep h) (initState h.dest) = .ok st ∧ OInv h n Q st := by
    intro n
    induction n with
    | zero =>
      refine ⟨_, [], rfl, ⟨?_, ?_, Or.inl rfl⟩⟩
      · constructor
        · intro i; exact nodeInv_init i
        all_goals simp [initState]
      · intro e _ _ hej; simp [initState] at hej
    | succ n ih =>
      obtain ⟨st, Q, h1, h2⟩ := ih
      obtain ⟨st', Q', h3, h4⟩ := popStep_inv hg h2 n
      refine ⟨st', Q', ?_, h4⟩
      rw [List.range_succ, List.foldlM_append, h1]
      simp only [py_ok_bind, List.foldlM_cons, List.foldlM_nil, h3]
      rfl
  obtain ⟨st, Q, h1, h2⟩ := hloop (allNodes h.nodes).length
  refine ⟨st, Q, h1, h2.inv, h2.comp, ?_⟩
  intro x hx hne
  rcases h2.prog with hp | hp
  · by_contra hxd
    have hsub : x :: st.done.filterMap id ⊆ allNodes h.nodes := by
      intro y hy
      rcases List.mem_cons.1 hy with rfl | hy
      · exact hx
      · rw [List.mem_filterMap] at hy
        obtain ⟨c, hc, hc'⟩ := hy
        simp only [id] at hc'
        exact h2.inv.mem y (hc' ▸ hc)
    have hnd : (x :: st.done.filterMap id).Nodup := by
      rw [List.nodup_cons]
      refine ⟨?_, h2.inv.nodup⟩
      intro hy
      rw [List.mem_filterMap] at hy
      obtain ⟨c, hc, hc'⟩ := hy
      simp only [id] at hc'
      exact hxd (hc' ▸ hc)
    have := (hnd.subperm hsub).length_le
    rw [List.length_cons, hp] at this
    omega
  · by_contra hxd
    exact hne (hp x hx hxd)

end Sidermit
