import Verif.Proofs.HyperPaths
import Mathlib.Tactic.Choose

/-!
Strategies over an intermediate node of the city: a strategy to the node is followed by a strategy from it.
-/

set_option linter.unusedSectionVars false

namespace Sidermit

variable {K : Type} [Field K] [LinearOrder K] [IsStrictOrderedRing K] {nodes : ENodes K} {edges : List (EEdge K)}
  {pas : Passenger K} {i j k : CityNode K} {Q : List (EEdge K)} {st : HState K}

/-- generalised time to walk between a stop and its node of the city -/
def walkTime (pas : Passenger K) (s : StopNode K) : K := s.mode.tat / 60 * pas.pa / pas.pv

/-- the mode of a stop or of a vehicle -/
def nodeMode : ENode K → Option (Mode K)
  | .city _ => none
  | .stop s => some s.mode
  | .route n => some n.stop.mode

/-- what is needed of the edges: a node of the city is left only for one of its stops, every stop can be left for its node of
the city, the mode is changed nowhere else, and leaving a vehicle always takes the same time -/
structure WalkEdges (nodes : ENodes K) (edges : List (EEdge K)) (τ : K) : Prop where
  out : ∀ e ∈ edges, ∀ c, e.i = .city c → ∃ s, .stop s ∈ allNodes nodes ∧ s.city = c ∧
    e = ⟨.city c, .stop s, s.mode.tat / 60, none, .access⟩
  enter : ∀ s, ENode.stop s ∈ allNodes nodes → (⟨.city s.city, .stop s, s.mode.tat / 60, none, .access⟩ : EEdge K) ∈ edges
  leave : ∀ s, ENode.stop s ∈ allNodes nodes → (⟨.stop s, .city s.city, s.mode.tat / 60, none, .access⟩ : EEdge K) ∈ edges
  modes : ∀ e ∈ edges, nodeMode e.i = nodeMode e.j ∨ (∃ c, e.i = .city c) ∨
    ∃ s, e = ⟨.stop s, .city s.city, s.mode.tat / 60, none, .access⟩
  alight : ∀ e ∈ edges, e.type = .alighting → e.t = τ

theorem HState.val_of_best {x : ENode K} {c : K} (h : st.best x = (c : WithTop K)) : st.val x = c := by
  unfold HState.val; rw [h]; rfl

/-- the nodes that follow have no larger labels -/
theorem val_succ_le (hg : HInput.Good (⟨nodes, edges, pas, some i, some k⟩ : HInput K))
    (hF : Final ⟨nodes, edges, pas, some i, some k⟩ Q st) {x : ENode K} (hx : some x ∈ st.done) {e : EEdge K}
    (he : e ∈ finalSucc st x) : st.val e.j ≤ st.val x := by
  obtain ⟨hQ, hei⟩ := (finalSucc_spec hg hF x).1 e he
  obtain ⟨g1, g2, g3, g4⟩ := hF.inv.seen e hQ
  rw [hei] at g4
  have := hF.inv.mono _ _ g3 hx g4.le
  rwa [hF.inv.best_eq g3, hF.inv.best_eq hx, WithTop.coe_le_coe] at this

/-- the strategies of the search to `j` that starts in `k` serve the one that starts in `i`, unless they walk through `i`;
then it is shorter to start there -/
theorem strategy_from (hg : HInput.Good (⟨nodes, edges, pas, some k, some j⟩ : HInput K)) {τ : K} (hw : WalkEdges nodes edges τ)
    (hF : Final ⟨nodes, edges, pas, some k, some j⟩ Q st) (hij : i ≠ j) : ∀ (n : Nat) (x : ENode K),
    st.done.idxOf (some x) ≤ n → some x ∈ st.done →
    (x ≠ .city i ∧ Strategy edges pas (some i) (some j) x (st.val x)) ∨
      ∃ s c, .stop s ∈ allNodes nodes ∧ s.city = i ∧ Strategy edges pas (some i) (some j) (.stop s) c ∧
        c + walkTime pas s ≤ st.val x := by
  intro n
  induction n using Nat.strong_induction_on with
  | _ n ih =>
    intro x hn hx
    obtain ⟨h1, h2⟩ := finalSucc_spec hg hF x
    have hsub : ∀ e ∈ finalSucc st x, e ∈ edges ∧ e.i = x ∧ ((e.j ≠ .city i ∧ Strategy edges pas (some i) (some j) e.j (st.val e.j)) ∨
      ∃ s c, .stop s ∈ allNodes nodes ∧ s.city = i ∧ Strategy edges pas (some i) (some j) (.stop s) c ∧
        c + walkTime pas s ≤ st.val x) := by
      intro e he
      obtain ⟨hQ, hei⟩ := h1 e he
      obtain ⟨g1, g2, g3, g4⟩ := hF.inv.seen e hQ
      rw [hei] at g4
      refine ⟨g1, hei, ?_⟩
      rcases ih _ (lt_of_lt_of_le g4 hn) e.j (le_refl _) g3 with h | ⟨s, c, a1, a2, a3, a4⟩
      · exact Or.inl h
      · exact Or.inr ⟨s, c, a1, a2, a3, a4.trans (val_succ_le hg hF hx he)⟩
    by_cases hex : ∃ s c, .stop s ∈ allNodes nodes ∧ s.city = i ∧ Strategy edges pas (some i) (some j) (.stop s) c ∧
        c + walkTime pas s ≤ st.val x
    · exact Or.inr hex
    replace hsub : ∀ e ∈ finalSucc st x, e ∈ edges ∧ e.i = x ∧ e.j ≠ .city i ∧
        Strategy edges pas (some i) (some j) e.j (st.val e.j) := by
      intro e he
      obtain ⟨g1, g2, g3⟩ := hsub e he
      exact ⟨g1, g2, g3.resolve_right hex⟩
    rcases h2 with ⟨d, hd, rfl, hb⟩ | ⟨hb, _⟩ | ⟨e, hsucc, heb, hb⟩ | ⟨hne, hnd, hl, ⟨s, rfl⟩, _, hb⟩
    · left
      cases hd
      rw [HState.val_of_best (c := 0) hb]
      exact ⟨fun h => hij (ENode.city.inj h).symm, Strategy.arrive _ rfl⟩
    · exact absurd hb (hF.inv.fin x hx)
    · obtain ⟨g1, g3, g5, g6⟩ := hsub e (by rw [hsucc]; simp)
      have hv := HState.val_of_best hb
      by_cases hxi : x = .city i
      · right
        obtain ⟨s, a1, a2, a3⟩ := hw.out e g1 i (g3.trans hxi)
        refine ⟨s, st.val (.stop s), a1, a2, by rw [a3] at g6; exact g6, ?_⟩
        rw [hv, a3]
        unfold HState.T legTime walkTime
        simp only
        linarith
      · left
        refine ⟨hxi, ?_⟩
        rw [hv, ← g3]
        refine Strategy.go e g1 heb ?_ ?_ _ g6
        · simp only [Option.map_some, ne_eq, Option.some.injEq]
          rw [g3]; exact hxi
        · simpa using g5
    · left
      refine ⟨by simp, ?_⟩
      rw [HState.val_of_best hb]
      have := Strategy.wait (edges := edges) (pas := pas) (origin := some i) (dest := some j) s
        ((finalSucc st (.stop s)).map fun b => (b, st.val b.j)) (by simpa using hne)
        (by rw [List.map_map]; simpa [Function.comp_def] using hnd) (by
          intro p hp
          obtain ⟨b, hb, rfl⟩ := List.mem_map.1 hp
          obtain ⟨g1, g3, g4⟩ := hsub b hb
          exact ⟨g1, (hl b hb).1, g3, (hl b hb).2⟩) (by
          intro p hp
          obtain ⟨b, hb, rfl⟩ := List.mem_map.1 hp
          exact (hsub b hb).2.2.2)
      rw [List.map_map, List.map_map] at this
      exact this

/-- waiting for lines that lead on later by at most `d` lasts longer by at most `d` -/
theorem wait_longer {α : Type} (l : List α) (hne : l ≠ []) (f t t' : α → K) (hf : ∀ a ∈ l, 0 < f a) (w d : K)
    (ht : ∀ a ∈ l, t' a ≤ t a + d) :
    (w + (l.map fun a => f a * t' a).sum) / (l.map f).sum ≤ (w + (l.map fun a => f a * t a).sum) / (l.map f).sum + d := by
  have hpos : 0 < (l.map f).sum := by
    clear ht
    induction l with
    | nil => exact absurd rfl hne
    | cons a m ih =>
      rw [List.map_cons, List.sum_cons]
      have ha := hf a List.mem_cons_self
      by_cases hm : m = []
      · subst hm; simpa using ha
      · have := ih hm fun b hb => hf b (List.mem_cons_of_mem _ hb)
        linarith
  have hsum : (l.map fun a => f a * t' a).sum ≤ (l.map fun a => f a * t a).sum + d * (l.map f).sum := by
    clear hpos hne
    induction l with
    | nil => simp
    | cons a m ih =>
      have h1 := ih (fun b hb => hf b (List.mem_cons_of_mem _ hb)) fun b hb => ht b (List.mem_cons_of_mem _ hb)
      have h2 := mul_le_mul_of_nonneg_left (ht a List.mem_cons_self) (hf a List.mem_cons_self).le
      simp only [List.map_cons, List.sum_cons]
      nlinarith
  rw [div_add' _ _ _ hpos.ne']
  exact div_le_div_of_nonneg_right (by linarith) hpos.le

theorem sum_times {α : Type} (l : List α) (f : α → K) (V : K) : V * (l.map f).sum = (l.map fun a => f a * V).sum := by
  induction l with
  | nil => simp
  | cons a m ih => simp only [List.map_cons, List.sum_cons, ← ih]; ring

/-- the stops of a mode are left on foot only: no strategy is faster than that walk -/
theorem walk_le_strategy (hg : HInput.Good (⟨nodes, edges, pas, some i, some k⟩ : HInput K)) {τ : K} (hw : WalkEdges nodes edges τ)
    {x : ENode K} {c : K} (hs : Strategy edges pas (some i) (some k) x c) :
    0 ≤ c ∧ ∀ m, nodeMode x = some m → m.tat / 60 * pas.pa / pas.pv ≤ c := by
  induction hs with
  | arrive d hd => exact ⟨le_refl _, fun m h => by cases h⟩
  | go e he hb hi hj c _ ih =>
    have hl : 0 ≤ legTime pas (some k) e := legTime_nonneg hg he
    refine ⟨add_nonneg hl ih.1, fun m hm => ?_⟩
    rcases hw.modes e he with h | ⟨c, h⟩ | ⟨s, h⟩
    · linarith [ih.2 m (h ▸ hm)]
    · rw [h] at hm; cases hm
    · rw [h] at hm
      cases hm
      have : legTime pas (some k) e = s.mode.tat / 60 * pas.pa / pas.pv := by
        rw [h]
        rfl
      linarith [ih.1]
  | wait s l hne hnd hl _ ih =>
    have hp : ∀ p ∈ l, 0 ≤ legTime pas (some k) p.1 + p.2 ∧
        s.mode.tat / 60 * pas.pa / pas.pv ≤ legTime pas (some k) p.1 + p.2 := by
      intro p hp
      obtain ⟨n, hn⟩ := hg.boarded p.1 (hl p hp).1 (hl p hp).2.1
      have h0 : 0 ≤ legTime pas (some k) p.1 := legTime_nonneg hg (hl p hp).1
      have := ih p hp
      refine ⟨by linarith [this.1], ?_⟩
      rcases hw.modes p.1 (hl p hp).1 with h | ⟨c, h⟩ | ⟨s', h⟩
      · rw [(hl p hp).2.2.1] at h
        linarith [this.2 s.mode h.symm]
      · rw [(hl p hp).2.2.1] at h; cases h
      · have := (hl p hp).2.1
        rw [h] at this; cases this
    have hwait : 0 ≤ waitCost pas s := by
      obtain ⟨p, hp⟩ := List.exists_mem_of_ne_nil _ hne
      obtain ⟨_, _, s', hs', hth⟩ := hg.board p.1 (hl p hp).1 (hl p hp).2.1
      rw [(hl p hp).2.2.1] at hs'
      cases hs'
      exact div_nonneg (mul_nonneg hth.le hg.pw.le) hg.pv.le
    have hpos : 0 < (l.map fun p => lineFreq p.1).sum := by
      have := sumF_pos (suc := l.map Prod.fst) (fun b hb => by
        obtain ⟨p, hp, rfl⟩ := List.mem_map.1 hb
        exact (hl p hp).2.2.2) (by simpa using hne)
      unfold sumF at this
      rwa [List.map_map] at this
    have key : ∀ V : K, (∀ p ∈ l, V ≤ legTime pas (some k) p.1 + p.2) →
        V ≤ (waitCost pas s + (l.map fun p => lineFreq p.1 * (legTime pas (some k) p.1 + p.2)).sum) /
          (l.map fun p => lineFreq p.1).sum := by
      intro V hV
      rw [le_div_iff₀ hpos]
      have : V * (l.map fun p => lineFreq p.1).sum ≤ (l.map fun p => lineFreq p.1 * (legTime pas (some k) p.1 + p.2)).sum := by
        have hmul := sum_times l (fun p : EEdge K × K => lineFreq p.1) V
        rw [hmul]
        exact List.sum_le_sum fun p hp => mul_le_mul_of_nonneg_left (hV p hp) (hl p hp).2.2.2.le
      linarith
    exact ⟨key 0 fun p h => (hp p h).1, fun m hm => by cases hm; exact key _ fun p h => (hp p h).2⟩

/-- a strategy to `k` followed by one from `k`: one more transfer, unless it starts at a stop of `k` -/
theorem strategy_via (hg : HInput.Good (⟨nodes, edges, pas, some i, some k⟩ : HInput K)) {τ : K} (hw : WalkEdges nodes edges τ)
    (hτ : 0 ≤ τ) (hik : i ≠ k) {c2 : K} (h2 : Strategy edges pas (some i) (some j) (.city k) c2) {x : ENode K} {c : K}
    (hs : Strategy edges pas (some i) (some k) x c) (hx : ∀ s, x = .stop s → s.city = k → .stop s ∈ allNodes nodes) :
    ∃ c', c' ≤ c + τ + c2 ∧ ((∃ s, x = .stop s ∧ s.city = k) → c' ≤ c + c2) ∧ Strategy edges pas (some i) (some j) x c' := by
  have hat : ∀ {s : StopNode K} {c : K}, s.city = k → .stop s ∈ allNodes nodes → Strategy edges pas (some i) (some k) (.stop s) c →
      ∃ c', c' ≤ c + c2 ∧ Strategy edges pas (some i) (some j) (.stop s) c' := by
    intro s c hsk hsn hs
    subst hsk
    refine ⟨_, ?_, Strategy.go _ (hw.leave s hsn) (by simp) (by simp) (by simpa using fun h => hik h.symm) c2 h2⟩
    have := (walk_le_strategy hg hw hs).2 s.mode rfl
    simp only [legTime]
    linarith
  by_cases hxk : ∃ s, x = .stop s ∧ s.city = k
  · obtain ⟨s, rfl, hsk⟩ := hxk
    obtain ⟨c', h1, h3⟩ := hat hsk (hx s rfl hsk) hs
    exact ⟨c', by linarith, fun _ => h1, h3⟩
  have hmem : ∀ e ∈ edges, ∀ s, e.j = .stop s → s.city = k → .stop s ∈ allNodes nodes := by
    intro e he s hes _
    rw [← hes]
    exact (hg.ends e he).2
  induction hs with
  | arrive d hd =>
    cases hd
    exact ⟨c2, by linarith, fun h => absurd h hxk, h2⟩
  | go e he hb hi hj c hc ih =>
    by_cases hal : e.type = .alighting
    · obtain ⟨s, hjs⟩ := hg.alight e he hal
      have ht := hw.alight e he hal
      by_cases hsk : s.city = k
      · have hlk : legTime pas (some k) e = 0 := by
          unfold legTime
          rw [hal, hjs]
          simp only
          rw [if_pos (by rw [hsk])]
        have hlj : legTime pas (some j) e ≤ τ := by
          unfold legTime
          rw [hal, hjs]
          simp only [ht]
          split_ifs
          · exact hτ
          · exact le_refl _
        obtain ⟨c', h1, h3⟩ := hat hsk (hmem e he s hjs hsk) (hjs ▸ hc)
        refine ⟨_, ?_, fun h => absurd h hxk, Strategy.go e he hb hi hj c' (by rw [hjs]; exact h3)⟩
        linarith
      · have hlk : legTime pas (some k) e = τ := by
          unfold legTime
          rw [hal, hjs]
          simp only [ht]
          rw [if_neg (by simpa using hsk)]
        have hlj : legTime pas (some j) e ≤ τ := by
          unfold legTime
          rw [hal, hjs]
          simp only [ht]
          split_ifs
          · exact hτ
          · exact le_refl _
        obtain ⟨c', h1, _, h3⟩ := ih (hmem e he) (by
          rintro ⟨s', h', h''⟩
          rw [hjs] at h'
          cases h'
          exact hsk h'')
        refine ⟨_, ?_, fun h => absurd h hxk, Strategy.go e he hb hi hj c' h3⟩
        linarith
    · have hle : legTime pas (some j) e = legTime pas (some k) e := by
        unfold legTime
        cases hty : e.type <;> simp_all
      have : ∃ c', c' ≤ c + τ + c2 ∧ Strategy edges pas (some i) (some j) e.j c' := by
        by_cases hjk : ∃ s, e.j = .stop s ∧ s.city = k
        · obtain ⟨s, hjs, hsk⟩ := hjk
          obtain ⟨c', h1, h3⟩ := hat hsk (hmem e he s hjs hsk) (hjs ▸ hc)
          exact ⟨c', by linarith, by rw [hjs]; exact h3⟩
        · obtain ⟨c', h1, _, h3⟩ := ih (hmem e he) hjk
          exact ⟨c', h1, h3⟩
      obtain ⟨c', h1, h3⟩ := this
      refine ⟨_, ?_, fun h => absurd h hxk, Strategy.go e he hb hi hj c' h3⟩
      rw [hle]
      linarith
  | wait s l hne hnd hl hs ih =>
    have hsub : ∀ p ∈ l, ∃ c', c' ≤ p.2 + (τ + c2) ∧ Strategy edges pas (some i) (some j) p.1.j c' := by
      intro p hp
      obtain ⟨n, hn⟩ := hg.boarded p.1 (hl p hp).1 (hl p hp).2.1
      obtain ⟨c', h1, _, h3⟩ := ih p hp (hmem _ (hl p hp).1) (by rw [hn]; simp)
      exact ⟨c', by linarith, h3⟩
    choose! c hc using hsub
    have := Strategy.wait (edges := edges) (pas := pas) (origin := some i) (dest := some j) s
      (l.map fun p => (p.1, c p)) (by simpa using hne)
      (by rw [List.map_map]; simpa [Function.comp_def] using hnd) (by
        intro p hp
        obtain ⟨b, hb, rfl⟩ := List.mem_map.1 hp
        exact hl b hb) (by
        intro p hp
        obtain ⟨b, hb, rfl⟩ := List.mem_map.1 hp
        exact (hc b hb).2)
    rw [List.map_map, List.map_map] at this
    refine ⟨_, ?_, fun h => absurd h hxk, this⟩
    rw [add_assoc]
    refine wait_longer l hne (fun p => lineFreq p.1) (fun p => legTime pas (some k) p.1 + p.2)
      (fun p => legTime pas (some j) p.1 + c p) (fun p hp => (hl p hp).2.2.2) (waitCost pas s) (τ + c2) ?_
    intro p hp
    have hle : legTime pas (some j) p.1 = legTime pas (some k) p.1 := by
      unfold legTime
      rw [(hl p hp).2.1]
    rw [hle]
    linarith [(hc p hp).1]

end Sidermit
