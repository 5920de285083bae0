import Verif.Proofs.Mode
import Mathlib.Algebra.Order.Ring.Rat
import Mathlib.Tactic.Positivity
import Mathlib.Tactic.NormNum

/-!
Properties C18-C21: transport modes, the mode manager, passengers.
-/

set_option linter.unusedSectionVars false

namespace Sidermit

variable {K : Type} [Field K] [LinearOrder K]

/-! ### C18 -/

/-- C18: whatever a user assigns to a mode, also when assignments raise, its attributes are in their documented
ranges. -/
theorem C18_mode_ranges {m : Mode K} (h : m.Reachable) : m.InRange := by
  induction h with
  | new h => exact (Mode.new_eq_ok.1 h).2.2
  | assign _ a ih => exact Mode.assign_inRange ih a

/-- C18: the constructor returns exactly on the documented arguments; the frequencies of the object are those given,
times the number of parallel lines. -/
theorem C18_constructor_exact (oid : Nat) (a : ModeArgs K) (m : Mode K) :
    Mode.new oid a = .ok m ↔ m.oid = oid ∧ a.Gives m ∧ m.InRange := Mode.new_eq_ok

/-- C18: an assignment of a value of the documented domain changes that attribute to that value and nothing else. -/
theorem C18_assignment_effect (m : Mode K) (a : ModeAssign K) (v : AttrVal K) (hv : a.value = some v)
    (hok : AttrOk a.target v) :
    (m.assign a).2 = none ∧ (m.assign a).1.oid = m.oid ∧ (m.assign a).1.read a.target = v ∧
      ∀ attr, attr ≠ a.target → (m.assign a).1.read attr = m.read attr := by
  rcases m.assign_cases a with ⟨w, h1, _, h3, h4, h5, h6⟩ | ⟨h1, _⟩
  · rw [hv] at h1; cases h1; exact ⟨h3, h4, h5, h6⟩
  · exact absurd hok (h1 v hv)

/-- C18: any other assignment (also of `None`) raises the exception of that attribute and changes nothing. -/
theorem C18_assignment_rejected (m : Mode K) (a : ModeAssign K) (h : ∀ v, a.value = some v → ¬ AttrOk a.target v) :
    m.assign a = (m, some a.target.exc) := by
  rcases m.assign_cases a with ⟨w, h1, h2, _⟩ | ⟨_, h2⟩
  · exact absurd h2 (h w h1)
  · exact h2

/-- C18: the default bus and metro exist (their constants are in the documented ranges); the bus runs on four parallel
lines of 150 vehicles per hour each, the metro on one of 40. -/
theorem C18_default_modes [IsStrictOrderedRing K] (oid : Nat) :
    ∃ bus metro : Mode K, defaultModes oid = .ok [bus, metro] ∧ bus.name = "bus".toList ∧ metro.name = "metro".toList ∧
      bus.d = 4 ∧ metro.d = 1 ∧ bus.fmax = 600 ∧ metro.fmax = 40 ∧ bus.fini = 112 ∧ metro.fini = 28 ∧
      bus.Reachable ∧ metro.Reachable := by
  have hb : ∃ bus : Mode K, Mode.new oid busArgs = .ok bus ∧ bus.name = "bus".toList ∧ bus.d = 4 ∧ bus.fmax = 600 ∧
      bus.fini = 112 := by
    refine ⟨⟨oid, "bus".toList, 1, 861 / 100, 15 / 100, 0, 20, 25 / 10, 600, 160, 7 / 10, 0, 4, 112⟩, ?_, rfl, rfl, rfl, rfl⟩
    rw [Mode.new_eq_ok]
    refine ⟨rfl, ⟨rfl, rfl, rfl, rfl, rfl, rfl, rfl, rfl, rfl, rfl, rfl, ⟨150, rfl, ?_⟩, ⟨28, rfl, ?_⟩⟩, ?_⟩
    · norm_num
    · norm_num
    · refine ⟨?_, ?_, ?_, ?_, ?_, ?_, ?_, ⟨?_, ?_⟩, ?_, ?_, ?_, ?_⟩ <;> norm_num
  have hm : ∃ metro : Mode K, Mode.new (oid + 1) metroArgs = .ok metro ∧ metro.name = "metro".toList ∧ metro.d = 1 ∧
      metro.fmax = 40 ∧ metro.fini = 28 := by
    refine ⟨⟨oid + 1, "metro".toList, 0, 8091 / 100, 3 / 10, 93315 / 100, 40, 33 / 100, 40, 1440, 5 / 10, 1, 1, 28⟩, ?_, rfl, rfl,
      rfl, rfl⟩
    rw [Mode.new_eq_ok]
    refine ⟨rfl, ⟨rfl, rfl, rfl, rfl, rfl, rfl, rfl, rfl, rfl, rfl, rfl, ⟨40, rfl, ?_⟩, ⟨28, rfl, ?_⟩⟩, ?_⟩
    · norm_num
    · norm_num
    · refine ⟨?_, ?_, ?_, ?_, ?_, ?_, ?_, ⟨?_, ?_⟩, ?_, ?_, ?_, ?_⟩ <;> norm_num
  obtain ⟨bus, hb, b1, b2, b3, b4⟩ := hb
  obtain ⟨metro, hm, m1, m2, m3, m4⟩ := hm
  refine ⟨bus, metro, ?_, b1, m1, b2, m2, b3, m3, b4, m4, .new hb, .new hm⟩
  simp [defaultModes, hb, hm]

/-- a constructed mode after one accepted and one rejected assignment -/
example : ∃ m : Mode ℚ, m.Reachable ∧ m.v = 35 ∧ m.theta = 7 / 10 ∧ m.fmax = 600 := by
  obtain ⟨m, hm⟩ : ∃ m : Mode ℚ, Mode.new 0 busArgs = .ok m := by
    obtain ⟨bus, metro, h, _⟩ := C18_default_modes (K := ℚ) 0
    simp only [defaultModes, py_bind_eq_ok] at h
    obtain ⟨b, hb, _⟩ := h
    exact ⟨b, hb⟩
  refine ⟨((m.assign (.v (some 35))).1.assign (.theta (some 2))).1, .assign (.assign (.new hm) _) _, ?_, ?_, ?_⟩ <;>
  · have h := (Mode.new_eq_ok.1 hm).2.1
    simp only [ModeArgs.Gives, busArgs, Option.some.injEq] at h
    obtain ⟨_, _, _, _, _, _, _, _, h9, _, h11, ⟨x, hx, h12⟩, _⟩ := h
    simp [Mode.assign, checkPos, checkTheta, show ¬ ((35 : ℚ) ≤ 0) by norm_num, show (1 : ℚ) < 2 by norm_num,
      ← h9, h12, ← hx, ← h11] <;> norm_num

example : (Mode.assign (K := ℚ) ⟨0, "bus".toList, 1, 8, 0, 0, 20, 2, 600, 160, 1 / 2, 0, 4, 112⟩ (.v (some 0))).2
    = some .VIsNotValid := by decide +kernel

/-! ### C19 -/

/-- C19: in every reachable state the manager is a dictionary from names to modes: the names are reported in the order
of the modes, they are pairwise distinct, and `get_mode` finds exactly the entry of a name. -/
theorem C19_manager_is_dictionary {s : ModeManager K} (h : s.Reachable) :
    ∃ entries : List (Str × Mode K), s.names = entries.map Prod.fst ∧ s.modes = entries.map Prod.snd ∧
      s.names.Nodup ∧ (∀ name m, s.getMode name = .ok m ↔ (name, m) ∈ entries) ∧
      ∀ name, name ∉ s.names → s.getMode name = .error .ModeNotFound := by
  obtain ⟨d, hd⟩ := h.is
  refine ⟨d, hd.names, hd.modes, hd.names ▸ hd.nodup, ?_, ?_⟩
  · intro name m
    rw [hd.getMode]
    constructor
    · intro h
      cases hg : d.get? name with
      | none => rw [hg] at h; cases h
      | some m' => rw [hg] at h; simp only [Except.ok.injEq] at h; subst h; exact Dict.mem_of_get? d hg
    · intro h
      rw [Dict.get?_of_mem d hd.nodup h]
  · intro name hn
    simp [ModeManager.getMode, hn]

/-- C19: `add_mode` succeeds exactly on a new name; then `get_mode` returns the added mode under its name, the other
names resolve as before and the new name is the last one.  Otherwise it raises and changes nothing. -/
theorem C19_add_mode {s : ModeManager K} (h : s.Reachable) (m : Mode K) :
    (m.name ∈ s.names → s.addMode m = (s, some .AddMode)) ∧
    (m.name ∉ s.names → (s.addMode m).2 = none ∧ (s.addMode m).1.names = s.names ++ [m.name] ∧
      (s.addMode m).1.getMode m.name = .ok m ∧
      ∀ name, name ≠ m.name → (s.addMode m).1.getMode name = s.getMode name) := by
  refine ⟨fun hm => by simp [ModeManager.addMode, hm], fun hm => ?_⟩
  obtain ⟨d, hd⟩ := h.is
  obtain ⟨h1, h2⟩ := hd.addMode hm
  have hn : d.get? m.name = none := by
    rw [Dict.get?_eq_none_iff]
    show m.name ∉ d.map Prod.fst
    exact hd.names ▸ hm
  refine ⟨h2, by simp [ModeManager.addMode, hm], ?_, ?_⟩
  · rw [h1.getMode, Dict.get?_append, hn]
    simp [Dict.get?]
  · intro name hne
    rw [h1.getMode, hd.getMode, Dict.get?_append]
    simp [Dict.get?, Ne.symm hne]

/-- C19: `remove_mode` succeeds exactly on a present name; then the name is gone, and the other names resolve as before
and keep their order.  Otherwise it raises and changes nothing. -/
theorem C19_remove_mode {s : ModeManager K} (h : s.Reachable) (n : Str) :
    (n ∉ s.names → s.removeMode n = (s, some .ModeDoesNotExist)) ∧
    (n ∈ s.names → (s.removeMode n).2 = none ∧ (s.removeMode n).1.names = s.names.filter (· ≠ n) ∧
      (s.removeMode n).1.getMode n = .error .ModeNotFound ∧
      ∀ name, name ≠ n → (s.removeMode n).1.getMode name = s.getMode name) := by
  refine ⟨fun hn => by simp [ModeManager.removeMode, hn], fun hn => ?_⟩
  obtain ⟨d, hd⟩ := h.is
  obtain ⟨h1, h2⟩ := hd.removeMode hn
  refine ⟨h2, ?_, ?_, ?_⟩
  · rw [h1.names, hd.names, List.filter_map]
    rfl
  · rw [h1.getMode, Dict.get?_filter_ne, if_pos rfl]
  · intro name hne
    rw [h1.getMode, hd.getMode, Dict.get?_filter_ne, if_neg hne]

/-- C19: an assignment to a mode object, be it held or not, does not touch the names; a name still resolves to the same
object, with the attribute changed when it is the object assigned to.  In particular a renamed mode keeps the name it
was added under. -/
theorem C19_assign_mode {s : ModeManager K} (h : s.Reachable) (oid : Nat) (a : ModeAssign K) :
    (s.assignMode oid a).names = s.names ∧
    ∀ name m, s.getMode name = .ok m →
      (s.assignMode oid a).getMode name = .ok (if m.oid = oid then (m.assign a).1 else m) := by
  refine ⟨rfl, fun name m hg => ?_⟩
  obtain ⟨d, hd⟩ := h.is
  rw [(hd.assignMode oid a).getMode,
    Dict.get?_map_snd d (fun m => if m.oid = oid then (m.assign a).1 else m) name]
  rw [hd.getMode] at hg
  cases hm : d.get? name with
  | none => rw [hm] at hg; cases hg
  | some m' =>
    rw [hm] at hg
    simp only [Except.ok.injEq] at hg
    subst hg
    rfl

/-- a manager after additions, a removal and a rejected addition -/
example : let bus : Mode ℚ := ⟨0, "bus".toList, 1, 8, 0, 0, 20, 2, 600, 160, 1 / 2, 0, 4, 112⟩
    let tram : Mode ℚ := ⟨1, "tram".toList, 1, 8, 0, 0, 20, 2, 600, 160, 1 / 2, 0, 1, 112⟩
    let s := [ManagerCall.add bus, .add tram, .add bus, .remove "bus".toList].foldl ManagerCall.run ⟨[], []⟩
    s.Reachable ∧ s.names = ["tram".toList] ∧ s.getMode "tram".toList = .ok tram := by
  intro bus tram s
  have h0 : ModeManager.Reachable (⟨[], []⟩ : ModeManager ℚ) := .init (oid := 0) (b := false) rfl
  refine ⟨((((h0.call (.add bus)).call (.add tram)).call (.add bus)).call (.remove "bus".toList)), ?_, ?_⟩
  · decide +kernel
  · rfl

/-! ### C20 -/

/-- C20: the check returns `True` exactly for one mode, or for two modes one of which has `d = 1`; in all other cases it
raises.  It never returns `False`. -/
theorem C20_valid_to_assignment (s : ModeManager K) :
    (s.isValidToAssignmentStep = .ok true ↔
      (∃ m, s.modes = [m]) ∨ (∃ m m', s.modes = [m, m'] ∧ (m.d = 1 ∨ m'.d = 1))) ∧
    (s.isValidToAssignmentStep ≠ .ok true → s.isValidToAssignmentStep = .error .TransportNetwork) := by
  unfold ModeManager.isValidToAssignmentStep
  rcases hs : s.modes with _ | ⟨m, _ | ⟨m', _ | ⟨m'', t⟩⟩⟩
  · simp
  · simp
  · by_cases h1 : m.d = 1
    · simp [h1]
    · by_cases h2 : m'.d = 1 <;> simp [h1, h2]
  · simp

example : (ModeManager.mk (K := ℚ) ["a".toList, "b".toList] [⟨0, "a".toList, 1, 8, 0, 0, 20, 2, 600, 160, 1 / 2, 0, 4, 112⟩,
    ⟨1, "b".toList, 1, 8, 0, 0, 20, 2, 600, 160, 1 / 2, 0, 1, 112⟩]).isValidToAssignmentStep = .ok true := by
  rfl
example : (ModeManager.mk (K := ℚ) ["a".toList, "b".toList] [⟨0, "a".toList, 1, 8, 0, 0, 20, 2, 600, 160, 1 / 2, 0, 4, 112⟩,
    ⟨1, "b".toList, 1, 8, 0, 0, 20, 2, 600, 160, 1 / 2, 0, 2, 112⟩]).isValidToAssignmentStep = .error .TransportNetwork := by
  rfl

/-! ### C21 -/

/-- C21: whatever a user assigns to a passenger, also when assignments raise, the walking speed is positive and the other
attributes are non-negative. -/
theorem C21_passenger_ranges {p : Passenger K} (h : p.Reachable) (attr : PassengerAttr) :
    PassengerOk attr (p.read attr) := by
  induction h generalizing attr with
  | new h => exact (Passenger.new_eq_ok.1 h).2.2.2.2.2.2.2.2.2 attr
  | @assign p _ a x ih =>
    rcases p.assign_cases a x with ⟨v, _, h2, _, h4, h5⟩ | ⟨_, h2⟩
    · by_cases e : attr = a
      · subst e; rw [h4]; exact h2
      · rw [h5 attr e]; exact ih attr
    · rw [h2]; exact ih attr

/-- C21: an assignment of a value of the documented domain changes that attribute to that value and nothing else; any
other assignment raises the exception of that attribute and changes nothing. -/
theorem C21_assignment_outcome (p : Passenger K) (attr : PassengerAttr) (x : Option K) :
    (∀ v, x = some v → PassengerOk attr v → (p.assign attr x).2 = none ∧ (p.assign attr x).1.read attr = v ∧
      ∀ a, a ≠ attr → (p.assign attr x).1.read a = p.read a) ∧
    ((∀ v, x = some v → ¬ PassengerOk attr v) → p.assign attr x = (p, some attr.exc)) := by
  rcases p.assign_cases attr x with ⟨w, h1, h2, h3⟩ | ⟨h1, h2⟩
  · exact ⟨fun v hv _ => by rw [hv] at h1; cases h1; exact h3, fun h => absurd h2 (h w h1)⟩
  · exact ⟨fun v hv hok => absurd hok (h1 v hv), fun _ => h2⟩

/-- C21: the constructor accepts exactly nine values of the documented domain and stores each in its attribute. -/
theorem C21_constructor_exact (va pv pw pa pt spv spw spa spt : Option K) (p : Passenger K) :
    Passenger.new va pv pw pa pt spv spw spa spt = .ok p ↔
      va = some p.va ∧ pv = some p.pv ∧ pw = some p.pw ∧ pa = some p.pa ∧ pt = some p.pt ∧ spv = some p.spv ∧
      spw = some p.spw ∧ spa = some p.spa ∧ spt = some p.spt ∧ ∀ a, PassengerOk a (p.read a) :=
  Passenger.new_eq_ok

/-- C21: the default passenger exists -/
theorem C21_default_passenger [IsStrictOrderedRing K] :
    ∃ p : Passenger K, Passenger.default = .ok p ∧ p.va = 4 ∧ p.pv = 137 / 50 ∧ p.spv = p.pv ∧ p.Reachable := by
  have : ∃ p : Passenger K, Passenger.default = .ok p ∧ p.va = 4 ∧ p.pv = 137 / 50 ∧ p.spv = p.pv := by
    refine ⟨⟨4, 274 / 100, 548 / 100, 822 / 100, 16, 274 / 100, 548 / 100, 822 / 100, 16⟩, ?_, rfl, ?_, rfl⟩
    · unfold Passenger.default
      rw [Passenger.new_eq_ok]
      refine ⟨rfl, rfl, rfl, rfl, rfl, rfl, rfl, rfl, rfl, ?_⟩
      intro a
      cases a <;> simp only [PassengerOk, Passenger.read, if_true, reduceCtorEq, if_false] <;> norm_num
    · norm_num
  obtain ⟨p, h1, h2, h3, h4⟩ := this
  exact ⟨p, h1, h2, h3, h4, .new h1⟩

example : ((Passenger.mk (K := ℚ) 4 1 1 1 1 1 1 1 1).assign .va (some 0)).2 = some .VaIsNotValid := by decide +kernel
example : ((Passenger.mk (K := ℚ) 4 1 1 1 1 1 1 1 1).assign .pw (some 0)).1.pw = 0 := by decide +kernel

end Sidermit
