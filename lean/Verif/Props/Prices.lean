import Verif.Proofs.Prices
import Verif.Props.Scale
import Verif.Props.Behaviour

/-!
C85: prices enter the objective only as prices: what is used does not depend on them, the objective is the bill, and what gets
dearer is not used more at the optimum.
-/

set_option linter.unusedSectionVars false

namespace Sidermit

section Generic

variable {K : Type} [Field K] [LinearOrder K] [IsStrictOrderedRing K] [PyMath K]

variable {g : Graph K} {d : Demand K} {pas : Passenger K} {net : Network K} {f : Option (Dict Str K)} {o o' : Optimizer K}

/-- C85: with other prices the optimizer is built or fails alike; it starts with the same frequencies of the same lines, has the
same constraints, and for all frequencies the same things are used. -/
theorem C85_same_usage (h : pas.pv ≠ 0) (c : Change K) (g : Graph K) (d : Demand K) (net : Network K) (f : Option (Dict Str K)) :
    (Optimizer.init g d (c.passenger pas) (c.network net) f).map (fun o => (o.fopt, o.lines, o.constrains, o.usage)) =
      (Optimizer.init g d pas net f).map fun o => (o.fopt, o.lines, o.constrains, fun x => (o.usage x).map c.usage) := by
  rw [init_same (change_same_choices c h)]
  have hi := init_change c g d pas net f
  revert hi
  generalize Optimizer.init g d pas (c.network net) f = w
  cases ha : Optimizer.init g d pas net f with
  | error e =>
    intro hi
    cases hi
    rfl
  | ok a =>
    intro hi
    cases hi with
    | ok ho =>
      rename_i b
      show Except.ok _ = Except.ok _
      congr 1
      refine Prod.ext ho.fopt (Prod.ext ?_ (Prod.ext ?_ ?_))
      · show b.lines = a.lines
        rw [ho.lines]
        exact List.map_id _
      · funext x
        exact PyRel.to_eq (constrains_terms c.keeps ho x)
      · funext x
        refine Eq.trans (usage_passenger b (c.passenger pas) ?_ x) (PyRel.to_map (usage_change c ho x))
        have e1 : a.pas = pas := (init_passenger ha).2.2.1
        rw [ho.pas, terms_passenger, e1]
        rfl

/-- C85: the objective is the bill: the sum of all that is used, each times its price. -/
theorem C85_bill (h : Optimizer.init g d pas net f = .ok o) (x : List K) : o.vrc x = (o.usage x).map (Prices.of pas).bill := by
  have e1 : o.pas = pas := (init_passenger h).2.2.1
  rw [← e1]
  exact PyRel.to_map (vrc_bill o x)

theorem change_fields (h : pas.pv ≠ 0) {c : Change K} (ho : Optimizer.init g d pas net f = .ok o)
    (ho' : Optimizer.init g d (c.passenger pas) (c.network net) f = .ok o') :
    o'.fopt = o.fopt ∧ o'.lines = o.lines ∧ o'.constrains = o.constrains ∧ ∀ x, o'.usage x = (o.usage x).map c.usage := by
  have hs := C85_same_usage h c g d net f
  rw [ho, ho'] at hs
  simp only [Except.map, Except.ok.injEq, Prod.mk.injEq] at hs
  exact ⟨hs.1, hs.2.1, hs.2.2.1, fun x => congrFun hs.2.2.2 x⟩

theorem bill_change (c : Change K) (pas : Passenger K) (s : Usage K) :
    (Prices.of (c.passenger pas)).bill (c.usage s) = (Prices.of pas).bill s + (c.rise pas).bill s := by
  unfold Prices.bill Change.usage
  simp only [List.map_map]
  have h1 : (s.lines.map ((fun l => (Prices.of (c.passenger pas)).vehicle l.1 * l.2.1 + (Prices.of (c.passenger pas)).place l.1 * l.2.2) ∘
      fun l => (c.mode l.1, l.2))).sum =
      (s.lines.map fun l => (Prices.of pas).vehicle l.1 * l.2.1 + (Prices.of pas).place l.1 * l.2.2).sum +
      (s.lines.map fun l => (c.rise pas).vehicle l.1 * l.2.1 + (c.rise pas).place l.1 * l.2.2).sum := by
    rw [← List.sum_map_add]
    congr 1
    refine List.map_congr_left fun l _ => ?_
    simp only [Function.comp, Prices.of, Change.rise, Change.mode]
    ring
  have h2 : (s.streets.map ((fun l => (Prices.of (c.passenger pas)).street l.1 * l.2) ∘ fun l => (c.mode l.1, l.2))).sum =
      (s.streets.map fun l => (Prices.of pas).street l.1 * l.2).sum + (s.streets.map fun l => (c.rise pas).street l.1 * l.2).sum := by
    rw [← List.sum_map_add]
    congr 1
    refine List.map_congr_left fun l _ => ?_
    simp only [Function.comp, Prices.of, Change.rise, Change.mode]
    ring
  rw [h1, h2]
  simp only [Prices.of, Change.rise, Change.passenger]
  ring

theorem rise_usage (c : Change K) (pas : Passenger K) (s : Usage K) : (c.rise pas).bill (c.usage s) = (c.rise pas).bill s := by
  unfold Prices.bill Change.usage
  simp only [List.map_map]
  rfl

/-- C85: with new prices, the objective rises by what is used times the rise of its price. -/
theorem C85_rise (h : pas.pv ≠ 0) {c : Change K} (ho : Optimizer.init g d pas net f = .ok o)
    (ho' : Optimizer.init g d (c.passenger pas) (c.network net) f = .ok o') (x : List K) :
    o'.vrc x = do let s ← o.usage x; let v ← o.vrc x; return v + (c.rise pas).bill s := by
  obtain ⟨_, _, _, hu⟩ := change_fields h ho ho'
  rw [C85_bill ho' x, C85_bill ho x, hu x]
  cases o.usage x with
  | error e => rfl
  | ok s => exact congrArg Except.ok (bill_change c pas s)

/-- C85: the rise of the smallest cost lies between the rises of the prices times what is used now and times what was used
before. -/
theorem C85_between (h : pas.pv ≠ 0) {c : Change K} (ho : Optimizer.init g d pas net f = .ok o)
    (ho' : Optimizer.init g d (c.passenger pas) (c.network net) f = .ok o') {A : Set (List K)} {x x' : List K} {v v' : K}
    (hx : Best o A x v) (hx' : Best o' A x' v') {s s' : Usage K} (hs : o.usage x = .ok s) (hs' : o'.usage x' = .ok s') :
    (c.rise pas).bill s' ≤ v' - v ∧ v' - v ≤ (c.rise pas).bill s := by
  obtain ⟨_, _, _, hu⟩ := change_fields h ho ho'
  have hv := fun y => C85_rise h ho ho' y
  constructor
  · have h1 := hu x'
    rw [hs'] at h1
    cases h2 : o.usage x' with
    | error e => rw [h2] at h1; cases h1
    | ok s0 =>
      rw [h2] at h1
      simp only [Except.map, Except.ok.injEq] at h1
      have h3 := C85_bill ho x'
      rw [h2] at h3
      have h4 := hv x'
      rw [h2, h3, hx'.value] at h4
      have h5 := hx.best x' hx'.mem _ h3
      have h6 : v' = (Prices.of pas).bill s0 + (c.rise pas).bill s0 := Except.ok.inj h4
      rw [h1, rise_usage, h6]
      linarith
  · have h4 := hv x
    rw [hs, hx.value] at h4
    have h5 := hx'.best x hx.mem _ h4
    linarith

/-- C85: law of demand: taken together, what gets dearer is not used more. -/
theorem C85_law_of_demand (h : pas.pv ≠ 0) {c : Change K} (ho : Optimizer.init g d pas net f = .ok o)
    (ho' : Optimizer.init g d (c.passenger pas) (c.network net) f = .ok o') {A : Set (List K)} {x x' : List K} {v v' : K}
    (hx : Best o A x v) (hx' : Best o' A x' v') {s s' : Usage K} (hs : o.usage x = .ok s) (hs' : o'.usage x' = .ok s') :
    (c.rise pas).bill s' ≤ (c.rise pas).bill s :=
  (C85_between h ho ho' hx hx' hs hs').1.trans (C85_between h ho ho' hx hx' hs hs').2

/-- no price changes -/
def Change.none (pas : Passenger K) : Change K := ⟨fun _ => 0, fun _ => 0, fun _ => 0, pas.spv, pas.spw, pas.spa, pas.spt⟩

/-- only of mode `i` -/
def only (i : Nat) (e : K) (j : Nat) : K := if j = i then e else 0

theorem only_vehicles (i : Nat) (e : K) (l : List (Mode K × K × K)) (w : K × K → K) :
    (l.map fun a => only i e a.1.oid * w a.2).sum = e * ((l.filter fun a => a.1.oid = i).map fun a => w a.2).sum := by
  induction l with
  | nil => simp
  | cons a l ih =>
    rw [List.map_cons, List.sum_cons, ih]
    by_cases ha : a.1.oid = i
    · rw [List.filter_cons_of_pos (by simpa using ha), List.map_cons, List.sum_cons, only, if_pos ha]
      ring
    · rw [List.filter_cons_of_neg (by simpa using ha), only, if_neg ha]
      ring

theorem only_streets (i : Nat) (e : K) (l : List (Mode K × K)) :
    (l.map fun a => only i e a.1.oid * a.2).sum = e * ((l.filter fun a => a.1.oid = i).map fun a => a.2).sum := by
  induction l with
  | nil => simp
  | cons a l ih =>
    rw [List.map_cons, List.sum_cons, ih]
    by_cases ha : a.1.oid = i
    · rw [List.filter_cons_of_pos (by simpa using ha), List.map_cons, List.sum_cons, only, if_pos ha]
      ring
    · rw [List.filter_cons_of_neg (by simpa using ha), only, if_neg ha]
      ring

theorem bill_zero_lines (l : List (Mode K × K × K)) : (l.map fun a => (0 : K) * a.2.1 + 0 * a.2.2).sum = 0 := by
  apply List.sum_eq_zero
  intro y hy
  obtain ⟨a, _, rfl⟩ := List.mem_map.1 hy
  ring

theorem bill_zero_streets (l : List (Mode K × K)) : (l.map fun a => (0 : K) * a.2).sum = 0 := by
  apply List.sum_eq_zero
  intro y hy
  obtain ⟨a, _, rfl⟩ := List.mem_map.1 hy
  ring

/-- the changes of a single price, and of what then is not used more -/
inductive Single (pas : Passenger K) (e : K) : Change K → (Usage K → K) → Prop
  | vehicle (i : Nat) : Single pas e { Change.none pas with co := only i e } fun s => s.vehicles i
  | place (i : Nat) : Single pas e { Change.none pas with c1 := only i e } fun s => s.places i
  | street (i : Nat) : Single pas e { Change.none pas with c2 := only i e } fun s => s.roads i
  | access : Single pas e { Change.none pas with spa := pas.spa + e } Usage.access
  | wait : Single pas e { Change.none pas with spw := pas.spw + e } Usage.wait
  | ride : Single pas e { Change.none pas with spv := pas.spv + e } fun s => s.ride + pas.spt / 60 * s.changes
  | change (h : pas.spv ≠ 0) : Single pas e { Change.none pas with spt := pas.spt + e * (60 / pas.spv) } Usage.changes

theorem single_rise {pas : Passenger K} {e : K} {c : Change K} {U : Usage K → K} (h : Single pas e c U) (s : Usage K) :
    (c.rise pas).bill s = e * U s := by
  cases h with
  | vehicle i =>
    unfold Prices.bill
    simp only [Change.rise, Change.none, sub_self, zero_mul, add_zero, List.map_const', List.sum_replicate, smul_zero]
    exact only_vehicles i e s.lines Prod.fst
  | place i =>
    unfold Prices.bill
    simp only [Change.rise, Change.none, sub_self, zero_mul, add_zero, zero_add, List.map_const', List.sum_replicate, smul_zero]
    exact only_vehicles i e s.lines Prod.snd
  | street i =>
    unfold Prices.bill
    simp only [Change.rise, Change.none, sub_self, zero_mul, add_zero, zero_add, List.map_const', List.sum_replicate, smul_zero]
    exact only_streets i e s.streets
  | access =>
    unfold Prices.bill
    simp only [Change.rise, Change.none]
    rw [bill_zero_lines, bill_zero_streets]
    ring
  | wait =>
    unfold Prices.bill
    simp only [Change.rise, Change.none]
    rw [bill_zero_lines, bill_zero_streets]
    ring
  | ride =>
    unfold Prices.bill
    simp only [Change.rise, Change.none]
    rw [bill_zero_lines, bill_zero_streets]
    ring
  | change h =>
    unfold Prices.bill
    simp only [Change.rise, Change.none]
    rw [bill_zero_lines, bill_zero_streets]
    field_simp
    ring

/-- C85: if a single thing gets dearer (the vehicles of a mode, the places in them, its streets, an hour of access, of waiting,
in vehicles, or a transfer) then it is not used more at the optimum. -/
theorem C85_dearer_not_more (h : pas.pv ≠ 0) {e : K} (he : 0 < e) {c : Change K} {U : Usage K → K} (hc : Single pas e c U)
    (ho : Optimizer.init g d pas net f = .ok o) (ho' : Optimizer.init g d (c.passenger pas) (c.network net) f = .ok o')
    {A : Set (List K)} {x x' : List K} {v v' : K} (hx : Best o A x v) (hx' : Best o' A x' v') {s s' : Usage K}
    (hs : o.usage x = .ok s) (hs' : o'.usage x' = .ok s') : U s' ≤ U s := by
  have h1 := C85_law_of_demand h ho ho' hx hx' hs hs'
  rw [single_rise hc, single_rise hc] at h1
  exact le_of_mul_le_mul_left h1 he

/-- C85: the frequencies that keep the constraints are the same for all prices. -/
theorem C85_same_feasible (h : pas.pv ≠ 0) {c : Change K} (ho : Optimizer.init g d pas net f = .ok o)
    (ho' : Optimizer.init g d (c.passenger pas) (c.network net) f = .ok o') : Feasible o' = Feasible o := by
  obtain ⟨_, h1, h2, _⟩ := change_fields h ho ho'
  unfold Feasible
  rw [h1, h2]

/-- C85: nothing is used a negative number of times. -/
theorem C85_nonneg (hb : Built g d pas net f o) {n : Nat} (hs : CityShape g n) (hm : net.modes.Nodup) (hsen : Sensible g d pas)
    (hco : Costly g pas net) {y : List K} (hlen : y.length = net.routes.length) (hy : ∀ q ∈ y, 0 < q) :
    ∃ s, o.usage y = .ok s ∧ (∀ l ∈ s.lines, 0 ≤ l.2.1 ∧ 0 ≤ l.2.2) ∧ (∀ l ∈ s.streets, 0 ≤ l.2) ∧
      0 ≤ s.access ∧ 0 ≤ s.wait ∧ 0 ≤ s.ride ∧ 0 ≤ s.changes := by
  obtain ⟨fr, times, t, hg, hfr, htimes, ht, hl, _, _⟩ := vrc_both hb hs hm hlen hy hco.lines
  obtain ⟨e1, _, e3, e4, hf, _, _, hx, _⟩ := prepare_fields hb.built
  have hadm := hb.adm
  rw [← hf] at hadm
  have hfn : ∀ id, 0 ≤ fr.getD id 0 := hg.value fun q hq => (hy q hq).le
  have hV := hb.trips hsen hl
  have htab := C44_nonneg hadm hb.nodes hx hl ht hfn hV
  obtain ⟨kz, kv⟩ := C50_applies hadm hb.nodes hx hl ht
  obtain ⟨hz', hv', _⟩ := C50_tables_unchanged kz kv net.routes times
  obtain ⟨u, hu⟩ := C52_terminates (z := (getCycleTime t.z t.v net.routes times).z) (v := (getCycleTime t.z t.v net.routes times).v)
    hadm hb.nodes hx hl hb.walk.ne'
  have hT : ∀ r ∈ net.routes, 0 ≤ times.getD r.id 0 := fun r hr =>
    (C49_nonneg_symmetric hs hb.nodes hadm.root hb.ids (fun r hr => (hb.adm.modes r hr).speed) htimes hr).1
  have hmem : ∀ {D : Dict (LoadKey K) K}, TableOk D → (∀ k, 0 ≤ D.getD k 0) → ∀ id : Str, 0 ≤ total D fun k => k.1 = id := by
    intro D hD h0 id
    apply List.sum_nonneg
    intro a ha
    obtain ⟨p, hp, rfl⟩ := List.mem_map.1 ha
    have := h0 p.1
    rwa [Dict.getD, Dict.get?_of_mem D hD (List.mem_filter.1 hp).1] at this
  have hcyc : ∀ r ∈ net.routes, 0 ≤ (getCycleTime t.z t.v net.routes times).time.getD r.id 0 := by
    intro r hr
    classical
    obtain ⟨c0, c1⟩ := C50_cycle_time kz kv hb.ids times (S := (Dict.keys t.z ++ Dict.keys t.v).dedup) (List.nodup_dedup _)
      (fun k hk => List.mem_dedup.2 (List.mem_append_left _ hk)) (fun k hk => List.mem_dedup.2 (List.mem_append_right _ hk)) hr
    have hin := hco.lines r hr
    have ht0 : 0 ≤ r.mode.t / 3600 := div_nonneg hin.2.2.2.2.1 (by norm_num)
    rcases hin.2.2.2.2.2.2.2.2.2.2.2 with hb0 | hb1
    · rw [Dict.getD, c0 hb0]
      exact add_nonneg (hT r hr) (mul_nonneg ht0 (add_nonneg (hmem kz (fun k => (htab k).1) _) (hmem kv (fun k => (htab k).2.1) _)))
    · rw [Dict.getD, c1 hb1]
      refine add_nonneg (hT r hr) (mul_nonneg ht0 ?_)
      apply List.sum_nonneg
      intro a ha
      obtain ⟨k, _, rfl⟩ := List.mem_map.1 ha
      exact le_max_of_le_left (htab k).1
  have hK : ∀ id, 0 ≤ (getK t.load).getD id 0 := by
    intro id
    rw [getK_eq]
    unfold fullest
    generalize ((t.load.filter fun p => decide (p.1.1 = id)).map Prod.snd) = L
    induction L with
    | nil => exact le_rfl
    | cons a L ih => exact le_max_of_le_right ih
  obtain ⟨r1, r2, r3, r4⟩ := C59_nonneg hadm hb.nodes hx hl hb.walk hu hfn hV
    (fun k => by rw [hz', hv']; exact ⟨(htab k).1, (htab k).2.1⟩) (fun r hr => (hco.lines r hr).2.2.2.2.1) hco.widths
  refine ⟨⟨(net.routes.filter fun r => fr.getD r.id 0 ≠ 0).map fun r =>
      (r.mode, fr.getD r.id 0 * (getCycleTime t.z t.v net.routes times).time.getD r.id 0,
        (getK t.load).getD r.id 0 * (fr.getD r.id 0 * (getCycleTime t.z t.v net.routes times).time.getD r.id 0)),
    modeDistance g net.routes net.modes fr, u.ta, u.te, u.tv, u.t⟩, ?_, ?_, ?_, r1, r2, r3, r4⟩
  · unfold Optimizer.usage
    rw [hfr, py_ok_bind, ht, py_ok_bind, e1, e3, e4, htimes, py_ok_bind]
    show (resourcesConsumer _ _ _ _ _ _ _ >>= _) = _
    rw [hu]
    rfl
  · intro l hl'
    obtain ⟨r, hr, rfl⟩ := List.mem_map.1 hl'
    have hr' := (List.mem_filter.1 hr).1
    exact ⟨mul_nonneg (hfn _) (hcyc r hr'), mul_nonneg (hK _) (mul_nonneg (hfn _) (hcyc r hr'))⟩
  · classical
    intro l hl'
    choose T hT' using fun m => C46_streets_exist g n net.routes fr m
    have hfold := modeDistance_fold hs hb.nodes net.routes fr T hT' net.modes [] hm (by simp [Dict.keys])
    have hl2 : l ∈ modeDistance g net.routes net.modes fr := hl'
    rw [modeDistance, hfold, List.nil_append] at hl2
    obtain ⟨m, hmm, rfl⟩ := List.mem_map.1 hl2
    have hr := hco.modes m (List.mem_filter.1 hmm).1
    refine mul_nonneg (List.sum_nonneg ?_) (by exact_mod_cast hr.2.2.2.2.2.2.2.2.2.1)
    intro b hb'
    obtain ⟨p, _, rfl⟩ := List.mem_map.1 hb'
    exact hadm.root _

/-- C85: if no price falls then no frequencies get cheaper. -/
theorem C85_dearer_costs (hb : Built g d pas net f o) {n : Nat} (hs : CityShape g n) (hm : net.modes.Nodup)
    (hsen : Sensible g d pas) (hco : Costly g pas net) (hpv : pas.pv ≠ 0) {c : Change K} (ho : Optimizer.init g d pas net f = .ok o)
    (ho' : Optimizer.init g d (c.passenger pas) (c.network net) f = .ok o')
    (hc : ∀ i, 0 ≤ c.co i ∧ 0 ≤ c.c1 i ∧ 0 ≤ c.c2 i) (ha : pas.spa ≤ c.spa) (hw : pas.spw ≤ c.spw) (hv : pas.spv ≤ c.spv)
    (ht : pas.spt ≤ c.spt) {y : List K} (hlen : y.length = net.routes.length) (hy : ∀ q ∈ y, 0 < q) :
    ∃ v v', o.vrc y = .ok v ∧ o'.vrc y = .ok v' ∧ v ≤ v' := by
  obtain ⟨s, h1, h2, h3, h4, h5, h6, h7⟩ := C85_nonneg hb hs hm hsen hco hlen hy
  have hr := C85_rise hpv ho ho' y
  have hvr := C85_bill ho y
  rw [h1] at hvr
  rw [h1, hvr] at hr
  refine ⟨_, _, hvr, hr, le_add_of_nonneg_right ?_⟩
  unfold Prices.bill
  refine add_nonneg (add_nonneg (List.sum_nonneg ?_) (List.sum_nonneg ?_)) ?_
  · intro a ha'
    obtain ⟨l, hl, rfl⟩ := List.mem_map.1 ha'
    exact add_nonneg (mul_nonneg (hc _).1 (h2 l hl).1) (mul_nonneg (hc _).2.1 (h2 l hl).2)
  · intro a ha'
    obtain ⟨l, hl, rfl⟩ := List.mem_map.1 ha'
    exact mul_nonneg (hc _).2.2 (h3 l hl)
  · refine add_nonneg (add_nonneg (add_nonneg (mul_nonneg (sub_nonneg.2 ha) h4) (mul_nonneg (sub_nonneg.2 hw) h5))
      (mul_nonneg (sub_nonneg.2 hv) h6)) (mul_nonneg (sub_nonneg.2 ?_) h7)
    exact mul_le_mul (div_le_div_of_nonneg_right ht (by norm_num)) hv hco.riding (div_nonneg (hco.changing.trans ht) (by norm_num))

end Generic

/-! ## examples -/

section Examples

attribute [local instance] ratMath ratText

/-- an hour of waiting costs 20 more -/
def dearWait : Change ℚ := { Change.none demoFair with spw := demoFair.spw + 20 }

example : Single demoFair 20 dearWait Usage.wait := .wait

def dearOpt : Optimizer ℚ :=
  ((Optimizer.init (demoCity 3) busDemand (dearWait.passenger demoFair) (dearWait.network busNet) none).toOption).getD
    busOpt

theorem dearOpt_built : Optimizer.init (demoCity 3) busDemand (dearWait.passenger demoFair) (dearWait.network busNet) none = .ok dearOpt :=
  isOk_of_toOption _ (by decide +kernel)

example : Optimizer.init (demoCity 3) busDemand demoFair busNet none = .ok busOpt := by
  have hc : busOpt.constrains busOpt.fopt = .ok (((busOpt.constrains busOpt.fopt).toOption).getD []) :=
    isOk_of_toOption _ (by decide +kernel)
  rw [Optimizer.init, busBuilt.built, py_ok_bind, hc]
  rfl

/-- the buses run every half hour and every twenty minutes, or twice as often -/
def choice : Set (List ℚ) := {[2, 3], [4, 6]}

example : Best busOpt choice [2, 3] (217459 / 1350) where
  mem := by simp [choice]
  value := by decide +kernel
  best := by
    rintro y (rfl | rfl) w hw
    · rw [show busOpt.vrc [2, 3] = .ok (217459 / 1350) by decide +kernel] at hw
      exact (Except.ok.inj hw).le
    · rw [show busOpt.vrc [4, 6] = .ok (267629 / 1350) by decide +kernel] at hw
      rw [← Except.ok.inj hw]
      norm_num

/-- now it is worth while to run twice as often -/
example : Best dearOpt choice [4, 6] (267629 / 1350 + 20 * (8 / 3)) where
  mem := by simp [choice]
  value := by decide +kernel
  best := by
    rintro y (rfl | rfl) w hw
    · rw [show dearOpt.vrc [2, 3] = .ok (217459 / 1350 + 20 * (16 / 3)) by decide +kernel] at hw
      rw [← Except.ok.inj hw]
      norm_num
    · rw [show dearOpt.vrc [4, 6] = .ok (267629 / 1350 + 20 * (8 / 3)) by decide +kernel] at hw
      exact (Except.ok.inj hw).le

example : (busOpt.usage [2, 3]).toOption.map Usage.wait = some (16 / 3) ∧ (dearOpt.usage [4, 6]).toOption.map Usage.wait = some (8 / 3) := by
  decide +kernel

/-- buses cost more -/
example : Single demoFair 1 { Change.none demoFair with co := only 1 1 } (fun s => s.vehicles 1) := .vehicle 1

example : (busOpt.usage [2, 3]).toOption.map (fun s => (s.vehicles 1, s.places 1, s.roads 1)) = some (1356 / 225, 6107 / 225, 35) := by
  decide +kernel

end Examples

end Sidermit
