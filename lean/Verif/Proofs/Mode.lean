import Verif.Spec.Mode
import Verif.Proofs.PyLemmas
import Verif.Proofs.Dict

/-! Lemmas about modes, the mode manager and passengers. -/

set_option linter.unusedSectionVars false
set_option linter.unusedSimpArgs false

namespace Sidermit

variable {K : Type} [Field K] [LinearOrder K]

@[simp] theorem store_ok {α R : Type} (obj : α) (x : R) (put : R → α) : store obj (.ok x) put = (put x, none) := rfl
@[simp] theorem store_error {α R : Type} (obj : α) (e : PyErr) (put : R → α) :
    store obj (.error e) put = (obj, some e) := rfl

theorem checkNonneg_eq_ok {R : Type} [Zero R] [LinearOrder R] {x : Option R} {e : PyErr} {y : R} :
    checkNonneg x e = .ok y ↔ x = some y ∧ 0 ≤ y := by
  unfold checkNonneg
  cases x with
  | none => simp
  | some z =>
    by_cases h : z < 0
    · simp only [h, if_true, Option.some.injEq, reduceCtorEq, false_iff, not_and, not_le]
      rintro rfl; exact h
    · simp only [h, if_false, Except.ok.injEq, Option.some.injEq]
      constructor
      · rintro rfl; exact ⟨rfl, not_lt.1 h⟩
      · rintro ⟨rfl, _⟩; rfl

theorem checkPos_eq_ok {x : Option K} {e : PyErr} {y : K} :
    checkPos x e = .ok y ↔ x = some y ∧ 0 < y := by
  unfold checkPos
  cases x with
  | none => simp
  | some z =>
    by_cases h : z ≤ 0
    · simp only [h, if_true, Option.some.injEq, reduceCtorEq, false_iff, not_and, not_lt]
      rintro rfl; exact h
    · simp only [h, if_false, Except.ok.injEq, Option.some.injEq]
      constructor
      · rintro rfl; exact ⟨rfl, not_le.1 h⟩
      · rintro ⟨rfl, _⟩; rfl

theorem checkName_eq_ok {x : Option Str} {y : Str} : checkName x = .ok y ↔ x = some y := by
  unfold checkName; cases x <;> simp

theorem checkBya_eq_ok {x : Option Int} {y : Int} : checkBya x = .ok y ↔ x = some y ∧ (y = 0 ∨ y = 1) := by
  unfold checkBya
  cases x with
  | none => simp
  | some z =>
    by_cases h : z = 0 ∨ z = 1
    · have h' : z ∈ ([0, 1] : List Int) := by simpa using h
      simp only [h', not_true_eq_false, if_false, Except.ok.injEq, Option.some.injEq]
      constructor
      · rintro rfl; exact ⟨rfl, h⟩
      · rintro ⟨rfl, _⟩; rfl
    · have h' : z ∉ ([0, 1] : List Int) := by simpa using h
      simp only [if_pos h', reduceCtorEq, Option.some.injEq, false_iff, not_and]
      rintro rfl; exact h

theorem checkTheta_eq_ok {x : Option K} {y : K} : checkTheta x = .ok y ↔ x = some y ∧ (0 ≤ y ∧ y ≤ 1) := by
  unfold checkTheta
  cases x with
  | none => simp
  | some z =>
    by_cases h : z < 0 ∨ z > 1
    · simp only [h, if_true, reduceCtorEq, Option.some.injEq, false_iff, not_and, not_le]
      rintro rfl h0; exact h.resolve_left (not_lt.2 h0)
    · simp only [h, if_false, Except.ok.injEq, Option.some.injEq]
      push Not at h
      constructor
      · rintro rfl; exact ⟨rfl, h⟩
      · rintro ⟨rfl, _⟩; rfl

theorem timesD_eq_ok {x : Option K} {d : Option Int} {y : K} :
    timesD x d = .ok y ↔ ∃ a b, x = some a ∧ d = some b ∧ y = a * (b : K) := by
  unfold timesD
  cases x <;> cases d <;> simp [eq_comm]

/-- the constructor of a mode -/
theorem Mode.new_eq_ok {oid : Nat} {a : ModeArgs K} {m : Mode K} :
    Mode.new oid a = .ok m ↔ m.oid = oid ∧ a.Gives m ∧ m.InRange := by
  unfold Mode.new ModeArgs.Gives Mode.InRange
  simp only [py_bind_eq_ok, checkNonneg_eq_ok, checkPos_eq_ok, checkName_eq_ok, checkBya_eq_ok, checkTheta_eq_ok,
    timesD_eq_ok, Option.some.injEq, py_pure, Except.ok.injEq]
  constructor
  · rintro ⟨name, h1, bya, ⟨h2, h2'⟩, co, ⟨h3, h3'⟩, c1, ⟨h4, h4'⟩, c2, ⟨h5, h5'⟩, v, ⟨h6, h6'⟩, t, ⟨h7, h7'⟩,
      _, ⟨f, d1, h8, h9, rfl⟩, fm, ⟨rfl, h10⟩, kmax, ⟨h11, h11'⟩, theta, ⟨h12, h12'⟩, tat, ⟨h13, h13'⟩,
      d, ⟨h14, h14'⟩, _, ⟨g, d2, h15, h16, rfl⟩, fi, ⟨rfl, h17⟩, rfl⟩
    have e1 : d1 = d := by rw [h9] at h14; simpa using h14
    have e2 : d2 = d := by rw [h16] at h14; simpa using h14
    subst e1; subst e2
    exact ⟨rfl, ⟨h1, h2, h3, h4, h5, h6, h7, h11, h12, h13, h14, ⟨f, h8, rfl⟩, ⟨g, h15, rfl⟩⟩,
      h3', h4', h5', h6', h7', h10, h11', h12', h13', h14', h17, h2'⟩
  · rintro ⟨rfl, ⟨h1, h2, h3, h4, h5, h6, h7, h11, h12, h13, h14, ⟨f, h8, e1⟩, ⟨g, h15, e2⟩⟩,
      h3', h4', h5', h6', h7', h10, h11', h12', h13', h14', h17, h2'⟩
    refine ⟨m.name, h1, m.bya, ⟨h2, h2'⟩, m.co, ⟨h3, h3'⟩, m.c1, ⟨h4, h4'⟩, m.c2, ⟨h5, h5'⟩, m.v, ⟨h6, h6'⟩,
      m.t, ⟨h7, h7'⟩, m.fmax, ⟨f, m.d, h8, h14, e1⟩, m.fmax, ⟨rfl, h10⟩, m.kmax, ⟨h11, h11'⟩, m.theta, ⟨h12, h12'⟩,
      m.tat, ⟨h13, h13'⟩, m.d, ⟨h14, h14'⟩, m.fini, ⟨g, m.d, h15, h14, e2⟩, m.fini, ⟨rfl, h17⟩, rfl⟩

/-- the outcome of storing a checked value, in terms of what the check accepts -/
theorem store_cases {α R : Type} {obj : α} {checked : Py R} {put : R → α} {e : PyErr}
    (he : ∀ e', checked = .error e' → e' = e) :
    (∃ x, checked = .ok x ∧ store obj checked put = (put x, none)) ∨
      ((∀ x, checked ≠ .ok x) ∧ store obj checked put = (obj, some e)) := by
  cases h : checked with
  | ok x => exact .inl ⟨x, rfl, rfl⟩
  | error e' => exact .inr ⟨by simp, by rw [store_error, he e' h]⟩

theorem checkNonneg_error {R : Type} [Zero R] [LinearOrder R] {x : Option R} {e e' : PyErr}
    (h : checkNonneg x e = .error e') : e' = e := by
  unfold checkNonneg at h
  cases x with
  | none => simp at h; exact h.symm
  | some z => simp only at h; split at h <;> simp at h; exact h.symm

theorem checkPos_error {x : Option K} {e e' : PyErr} (h : checkPos x e = .error e') : e' = e := by
  unfold checkPos at h
  cases x with
  | none => simp at h; exact h.symm
  | some z => simp only at h; split at h <;> simp at h; exact h.symm

theorem checkName_error {x : Option Str} {e' : PyErr} (h : checkName x = .error e') : e' = .NameIsNotValid := by
  unfold checkName at h
  cases x with
  | none => simp at h; exact h.symm
  | some z => simp at h

theorem checkBya_error {x : Option Int} {e' : PyErr} (h : checkBya x = .error e') : e' = .ByaIsNotValid := by
  unfold checkBya at h
  cases x with
  | none => simp at h; exact h.symm
  | some z => simp only at h; split at h <;> simp at h; exact h.symm

theorem checkTheta_error {x : Option K} {e' : PyErr} (h : checkTheta x = .error e') : e' = .ThetaIsNotValid := by
  unfold checkTheta at h
  cases x with
  | none => simp at h; exact h.symm
  | some z => simp only at h; split at h <;> simp at h; exact h.symm

/-- one assignment to a mode -/
theorem Mode.assign_cases (m : Mode K) (a : ModeAssign K) :
    (∃ v, a.value = some v ∧ AttrOk a.target v ∧ (m.assign a).2 = none ∧ (m.assign a).1.oid = m.oid ∧
        (m.assign a).1.read a.target = v ∧ ∀ at', at' ≠ a.target → (m.assign a).1.read at' = m.read at') ∨
      ((∀ v, a.value = some v → ¬ AttrOk a.target v) ∧ m.assign a = (m, some a.target.exc)) := by
  cases a with
  | name x =>
    rcases store_cases (obj := m) (checked := checkName x) (put := fun x => { m with name := x })
      (e := .NameIsNotValid) (fun _ h => checkName_error h) with ⟨y, h1, h2⟩ | ⟨h1, h2⟩
    · have := checkName_eq_ok.1 h1
      refine .inl ⟨.text y, by simp [ModeAssign.value, this], by simp [ModeAssign.target, AttrOk], ?_⟩
      simp only [Mode.assign, h2, ModeAssign.target, Mode.read, true_and]
      intro at' h; cases at' <;> simp_all [Mode.read]
    · refine .inr ⟨?_, h2⟩
      intro v hv hok
      cases x with
      | none => simp [ModeAssign.value] at hv
      | some s => exact h1 s rfl
  | bya x =>
    rcases store_cases (obj := m) (checked := checkBya x) (put := fun x => { m with bya := x })
      (e := .ByaIsNotValid) (fun _ h => checkBya_error h) with ⟨y, h1, h2⟩ | ⟨h1, h2⟩
    · have := checkBya_eq_ok.1 h1
      refine .inl ⟨.int y, by simp [ModeAssign.value, this.1], by simpa [ModeAssign.target, AttrOk] using this.2, ?_⟩
      simp only [Mode.assign, h2, ModeAssign.target, Mode.read, true_and]
      intro at' h; cases at' <;> simp_all [Mode.read]
    · refine .inr ⟨?_, h2⟩
      intro v hv hok
      cases x with
      | none => simp [ModeAssign.value] at hv
      | some s =>
        simp only [ModeAssign.value, Option.map_some, Option.some.injEq] at hv; subst hv
        exact h1 s (checkBya_eq_ok.2 ⟨rfl, by simpa [ModeAssign.target, AttrOk] using hok⟩)
  | theta x =>
    rcases store_cases (obj := m) (checked := checkTheta x) (put := fun x => { m with theta := x })
      (e := .ThetaIsNotValid) (fun _ h => checkTheta_error h) with ⟨y, h1, h2⟩ | ⟨h1, h2⟩
    · have := checkTheta_eq_ok.1 h1
      refine .inl ⟨.num y, by simp [ModeAssign.value, this.1], by simpa [ModeAssign.target, AttrOk] using this.2, ?_⟩
      simp only [Mode.assign, h2, ModeAssign.target, Mode.read, true_and]
      intro at' h; cases at' <;> simp_all [Mode.read]
    · refine .inr ⟨?_, h2⟩
      intro v hv hok
      cases x with
      | none => simp [ModeAssign.value] at hv
      | some s =>
        simp only [ModeAssign.value, Option.map_some, Option.some.injEq] at hv; subst hv
        exact h1 s (checkTheta_eq_ok.2 ⟨rfl, by simpa [ModeAssign.target, AttrOk] using hok⟩)
  | v x =>
    rcases store_cases (obj := m) (checked := checkPos x .VIsNotValid) (put := fun x => { m with v := x })
      (e := .VIsNotValid) (fun _ h => checkPos_error h) with ⟨y, h1, h2⟩ | ⟨h1, h2⟩
    · have := checkPos_eq_ok.1 h1
      refine .inl ⟨.num y, by simp [ModeAssign.value, this.1], by simpa [ModeAssign.target, AttrOk] using this.2, ?_⟩
      simp only [Mode.assign, h2, ModeAssign.target, Mode.read, true_and]
      intro at' h; cases at' <;> simp_all [Mode.read]
    · refine .inr ⟨?_, h2⟩
      intro v hv hok
      cases x with
      | none => simp [ModeAssign.value] at hv
      | some s =>
        simp only [ModeAssign.value, Option.map_some, Option.some.injEq] at hv; subst hv
        exact h1 s (checkPos_eq_ok.2 ⟨rfl, by simpa [ModeAssign.target, AttrOk] using hok⟩)
  | d x =>
    rcases store_cases (obj := m) (checked := checkNonneg x .DIsNotValid) (put := fun x => { m with d := x })
      (e := .DIsNotValid) (fun _ h => checkNonneg_error h) with ⟨y, h1, h2⟩ | ⟨h1, h2⟩
    · have := checkNonneg_eq_ok.1 h1
      refine .inl ⟨.int y, by simp [ModeAssign.value, this.1], by simpa [ModeAssign.target, AttrOk] using this.2, ?_⟩
      simp only [Mode.assign, h2, ModeAssign.target, Mode.read, true_and]
      intro at' h; cases at' <;> simp_all [Mode.read]
    · refine .inr ⟨?_, h2⟩
      intro v hv hok
      cases x with
      | none => simp [ModeAssign.value] at hv
      | some s =>
        simp only [ModeAssign.value, Option.map_some, Option.some.injEq] at hv; subst hv
        exact h1 s (checkNonneg_eq_ok.2 ⟨rfl, by simpa [ModeAssign.target, AttrOk] using hok⟩)
  | co x =>
    rcases store_cases (obj := m) (checked := checkNonneg x .CoIsNotValid) (put := fun x => { m with co := x })
      (e := .CoIsNotValid) (fun _ h => checkNonneg_error h) with ⟨y, h1, h2⟩ | ⟨h1, h2⟩
    · have := checkNonneg_eq_ok.1 h1
      refine .inl ⟨.num y, by simp [ModeAssign.value, this.1], by simpa [ModeAssign.target, AttrOk] using this.2, ?_⟩
      simp only [Mode.assign, h2, ModeAssign.target, Mode.read, true_and]
      intro at' h; cases at' <;> simp_all [Mode.read]
    · refine .inr ⟨?_, h2⟩
      intro v hv hok
      cases x with
      | none => simp [ModeAssign.value] at hv
      | some s =>
        simp only [ModeAssign.value, Option.map_some, Option.some.injEq] at hv; subst hv
        exact h1 s (checkNonneg_eq_ok.2 ⟨rfl, by simpa [ModeAssign.target, AttrOk] using hok⟩)
  | c1 x =>
    rcases store_cases (obj := m) (checked := checkNonneg x .C1IsNotValid) (put := fun x => { m with c1 := x })
      (e := .C1IsNotValid) (fun _ h => checkNonneg_error h) with ⟨y, h1, h2⟩ | ⟨h1, h2⟩
    · have := checkNonneg_eq_ok.1 h1
      refine .inl ⟨.num y, by simp [ModeAssign.value, this.1], by simpa [ModeAssign.target, AttrOk] using this.2, ?_⟩
      simp only [Mode.assign, h2, ModeAssign.target, Mode.read, true_and]
      intro at' h; cases at' <;> simp_all [Mode.read]
    · refine .inr ⟨?_, h2⟩
      intro v hv hok
      cases x with
      | none => simp [ModeAssign.value] at hv
      | some s =>
        simp only [ModeAssign.value, Option.map_some, Option.some.injEq] at hv; subst hv
        exact h1 s (checkNonneg_eq_ok.2 ⟨rfl, by simpa [ModeAssign.target, AttrOk] using hok⟩)
  | c2 x =>
    rcases store_cases (obj := m) (checked := checkNonneg x .C2IsNotValid) (put := fun x => { m with c2 := x })
      (e := .C2IsNotValid) (fun _ h => checkNonneg_error h) with ⟨y, h1, h2⟩ | ⟨h1, h2⟩
    · have := checkNonneg_eq_ok.1 h1
      refine .inl ⟨.num y, by simp [ModeAssign.value, this.1], by simpa [ModeAssign.target, AttrOk] using this.2, ?_⟩
      simp only [Mode.assign, h2, ModeAssign.target, Mode.read, true_and]
      intro at' h; cases at' <;> simp_all [Mode.read]
    · refine .inr ⟨?_, h2⟩
      intro v hv hok
      cases x with
      | none => simp [ModeAssign.value] at hv
      | some s =>
        simp only [ModeAssign.value, Option.map_some, Option.some.injEq] at hv; subst hv
        exact h1 s (checkNonneg_eq_ok.2 ⟨rfl, by simpa [ModeAssign.target, AttrOk] using hok⟩)
  | t x =>
    rcases store_cases (obj := m) (checked := checkNonneg x .TIsNotValid) (put := fun x => { m with t := x })
      (e := .TIsNotValid) (fun _ h => checkNonneg_error h) with ⟨y, h1, h2⟩ | ⟨h1, h2⟩
    · have := checkNonneg_eq_ok.1 h1
      refine .inl ⟨.num y, by simp [ModeAssign.value, this.1], by simpa [ModeAssign.target, AttrOk] using this.2, ?_⟩
      simp only [Mode.assign, h2, ModeAssign.target, Mode.read, true_and]
      intro at' h; cases at' <;> simp_all [Mode.read]
    · refine .inr ⟨?_, h2⟩
      intro v hv hok
      cases x with
      | none => simp [ModeAssign.value] at hv
      | some s =>
        simp only [ModeAssign.value, Option.map_some, Option.some.injEq] at hv; subst hv
        exact h1 s (checkNonneg_eq_ok.2 ⟨rfl, by simpa [ModeAssign.target, AttrOk] using hok⟩)
  | fmax x =>
    rcases store_cases (obj := m) (checked := checkNonneg x .FmaxIsNotValid) (put := fun x => { m with fmax := x })
      (e := .FmaxIsNotValid) (fun _ h => checkNonneg_error h) with ⟨y, h1, h2⟩ | ⟨h1, h2⟩
    · have := checkNonneg_eq_ok.1 h1
      refine .inl ⟨.num y, by simp [ModeAssign.value, this.1], by simpa [ModeAssign.target, AttrOk] using this.2, ?_⟩
      simp only [Mode.assign, h2, ModeAssign.target, Mode.read, true_and]
      intro at' h; cases at' <;> simp_all [Mode.read]
    · refine .inr ⟨?_, h2⟩
      intro v hv hok
      cases x with
      | none => simp [ModeAssign.value] at hv
      | some s =>
        simp only [ModeAssign.value, Option.map_some, Option.some.injEq] at hv; subst hv
        exact h1 s (checkNonneg_eq_ok.2 ⟨rfl, by simpa [ModeAssign.target, AttrOk] using hok⟩)
  | kmax x =>
    rcases store_cases (obj := m) (checked := checkNonneg x .KmaxIsNotValid) (put := fun x => { m with kmax := x })
      (e := .KmaxIsNotValid) (fun _ h => checkNonneg_error h) with ⟨y, h1, h2⟩ | ⟨h1, h2⟩
    · have := checkNonneg_eq_ok.1 h1
      refine .inl ⟨.num y, by simp [ModeAssign.value, this.1], by simpa [ModeAssign.target, AttrOk] using this.2, ?_⟩
      simp only [Mode.assign, h2, ModeAssign.target, Mode.read, true_and]
      intro at' h; cases at' <;> simp_all [Mode.read]
    · refine .inr ⟨?_, h2⟩
      intro v hv hok
      cases x with
      | none => simp [ModeAssign.value] at hv
      | some s =>
        simp only [ModeAssign.value, Option.map_some, Option.some.injEq] at hv; subst hv
        exact h1 s (checkNonneg_eq_ok.2 ⟨rfl, by simpa [ModeAssign.target, AttrOk] using hok⟩)
  | tat x =>
    rcases store_cases (obj := m) (checked := checkNonneg x .TatIsNotValid) (put := fun x => { m with tat := x })
      (e := .TatIsNotValid) (fun _ h => checkNonneg_error h) with ⟨y, h1, h2⟩ | ⟨h1, h2⟩
    · have := checkNonneg_eq_ok.1 h1
      refine .inl ⟨.num y, by simp [ModeAssign.value, this.1], by simpa [ModeAssign.target, AttrOk] using this.2, ?_⟩
      simp only [Mode.assign, h2, ModeAssign.target, Mode.read, true_and]
      intro at' h; cases at' <;> simp_all [Mode.read]
    · refine .inr ⟨?_, h2⟩
      intro v hv hok
      cases x with
      | none => simp [ModeAssign.value] at hv
      | some s =>
        simp only [ModeAssign.value, Option.map_some, Option.some.injEq] at hv; subst hv
        exact h1 s (checkNonneg_eq_ok.2 ⟨rfl, by simpa [ModeAssign.target, AttrOk] using hok⟩)
  | fini x =>
    rcases store_cases (obj := m) (checked := checkNonneg x .FiniIsNotValid) (put := fun x => { m with fini := x })
      (e := .FiniIsNotValid) (fun _ h => checkNonneg_error h) with ⟨y, h1, h2⟩ | ⟨h1, h2⟩
    · have := checkNonneg_eq_ok.1 h1
      refine .inl ⟨.num y, by simp [ModeAssign.value, this.1], by simpa [ModeAssign.target, AttrOk] using this.2, ?_⟩
      simp only [Mode.assign, h2, ModeAssign.target, Mode.read, true_and]
      intro at' h; cases at' <;> simp_all [Mode.read]
    · refine .inr ⟨?_, h2⟩
      intro v hv hok
      cases x with
      | none => simp [ModeAssign.value] at hv
      | some s =>
        simp only [ModeAssign.value, Option.map_some, Option.some.injEq] at hv; subst hv
        exact h1 s (checkNonneg_eq_ok.2 ⟨rfl, by simpa [ModeAssign.target, AttrOk] using hok⟩)

theorem Mode.inRange_iff (m : Mode K) : m.InRange ↔ ∀ a, AttrOk a (m.read a) := by
  constructor
  · rintro ⟨h1, h2, h3, h4, h5, h6, h7, h8, h9, h10, h11, h12⟩ a
    cases a <;> simp only [Mode.read, AttrOk] <;> assumption
  · intro h
    exact ⟨h .co, h .c1, h .c2, h .v, h .t, h .fmax, h .kmax, h .theta, h .tat, h .d, h .fini, h .bya⟩

theorem Mode.assign_inRange {m : Mode K} (h : m.InRange) (a : ModeAssign K) : (m.assign a).1.InRange := by
  rcases m.assign_cases a with ⟨v, _, h2, _, _, h4, h5⟩ | ⟨_, h2⟩
  · rw [Mode.inRange_iff] at h ⊢
    intro at'
    by_cases e : at' = a.target
    · subst e; rw [h4]; exact h2
    · rw [h5 at' e]; exact h at'
  · rw [h2]; exact h

theorem Passenger.assign_cases (p : Passenger K) (attr : PassengerAttr) (x : Option K) :
    (∃ v, x = some v ∧ PassengerOk attr v ∧ (p.assign attr x).2 = none ∧ (p.assign attr x).1.read attr = v ∧
        ∀ a, a ≠ attr → (p.assign attr x).1.read a = p.read a) ∨
      ((∀ v, x = some v → ¬ PassengerOk attr v) ∧ p.assign attr x = (p, some attr.exc)) := by
  cases attr with
  | va =>
    rcases store_cases (obj := p) (checked := checkPos x .VaIsNotValid) (put := fun x => { p with va := x })
      (e := .VaIsNotValid) (fun _ h => checkPos_error h) with ⟨y, h1, h2⟩ | ⟨h1, h2⟩
    · have := checkPos_eq_ok.1 h1
      refine .inl ⟨y, this.1, by simpa [PassengerOk] using this.2, ?_⟩
      simp only [Passenger.assign, h2, Passenger.read, true_and]
      intro a h; cases a <;> simp_all [Passenger.read]
    · refine .inr ⟨?_, h2⟩
      rintro v rfl hok
      exact h1 v (checkPos_eq_ok.2 ⟨rfl, by simpa [PassengerOk] using hok⟩)
  | pv =>
    rcases store_cases (obj := p) (checked := checkNonneg x .PvIsNotValid) (put := fun x => { p with pv := x })
      (e := .PvIsNotValid) (fun _ h => checkNonneg_error h) with ⟨y, h1, h2⟩ | ⟨h1, h2⟩
    · have := checkNonneg_eq_ok.1 h1
      refine .inl ⟨y, this.1, by simpa [PassengerOk] using this.2, ?_⟩
      simp only [Passenger.assign, h2, Passenger.read, true_and]
      intro a h; cases a <;> simp_all [Passenger.read]
    · refine .inr ⟨?_, h2⟩
      rintro v rfl hok
      exact h1 v (checkNonneg_eq_ok.2 ⟨rfl, by simpa [PassengerOk] using hok⟩)
  | pw =>
    rcases store_cases (obj := p) (checked := checkNonneg x .PwIsNotValid) (put := fun x => { p with pw := x })
      (e := .PwIsNotValid) (fun _ h => checkNonneg_error h) with ⟨y, h1, h2⟩ | ⟨h1, h2⟩
    · have := checkNonneg_eq_ok.1 h1
      refine .inl ⟨y, this.1, by simpa [PassengerOk] using this.2, ?_⟩
      simp only [Passenger.assign, h2, Passenger.read, true_and]
      intro a h; cases a <;> simp_all [Passenger.read]
    · refine .inr ⟨?_, h2⟩
      rintro v rfl hok
      exact h1 v (checkNonneg_eq_ok.2 ⟨rfl, by simpa [PassengerOk] using hok⟩)
  | pa =>
    rcases store_cases (obj := p) (checked := checkNonneg x .PaIsNotValid) (put := fun x => { p with pa := x })
      (e := .PaIsNotValid) (fun _ h => checkNonneg_error h) with ⟨y, h1, h2⟩ | ⟨h1, h2⟩
    · have := checkNonneg_eq_ok.1 h1
      refine .inl ⟨y, this.1, by simpa [PassengerOk] using this.2, ?_⟩
      simp only [Passenger.assign, h2, Passenger.read, true_and]
      intro a h; cases a <;> simp_all [Passenger.read]
    · refine .inr ⟨?_, h2⟩
      rintro v rfl hok
      exact h1 v (checkNonneg_eq_ok.2 ⟨rfl, by simpa [PassengerOk] using hok⟩)
  | pt =>
    rcases store_cases (obj := p) (checked := checkNonneg x .PtIsNotValid) (put := fun x => { p with pt := x })
      (e := .PtIsNotValid) (fun _ h => checkNonneg_error h) with ⟨y, h1, h2⟩ | ⟨h1, h2⟩
    · have := checkNonneg_eq_ok.1 h1
      refine .inl ⟨y, this.1, by simpa [PassengerOk] using this.2, ?_⟩
      simp only [Passenger.assign, h2, Passenger.read, true_and]
      intro a h; cases a <;> simp_all [Passenger.read]
    · refine .inr ⟨?_, h2⟩
      rintro v rfl hok
      exact h1 v (checkNonneg_eq_ok.2 ⟨rfl, by simpa [PassengerOk] using hok⟩)
  | spv =>
    rcases store_cases (obj := p) (checked := checkNonneg x .SpvIsNotValid) (put := fun x => { p with spv := x })
      (e := .SpvIsNotValid) (fun _ h => checkNonneg_error h) with ⟨y, h1, h2⟩ | ⟨h1, h2⟩
    · have := checkNonneg_eq_ok.1 h1
      refine .inl ⟨y, this.1, by simpa [PassengerOk] using this.2, ?_⟩
      simp only [Passenger.assign, h2, Passenger.read, true_and]
      intro a h; cases a <;> simp_all [Passenger.read]
    · refine .inr ⟨?_, h2⟩
      rintro v rfl hok
      exact h1 v (checkNonneg_eq_ok.2 ⟨rfl, by simpa [PassengerOk] using hok⟩)
  | spw =>
    rcases store_cases (obj := p) (checked := checkNonneg x .SpwIsNotValid) (put := fun x => { p with spw := x })
      (e := .SpwIsNotValid) (fun _ h => checkNonneg_error h) with ⟨y, h1, h2⟩ | ⟨h1, h2⟩
    · have := checkNonneg_eq_ok.1 h1
      refine .inl ⟨y, this.1, by simpa [PassengerOk] using this.2, ?_⟩
      simp only [Passenger.assign, h2, Passenger.read, true_and]
      intro a h; cases a <;> simp_all [Passenger.read]
    · refine .inr ⟨?_, h2⟩
      rintro v rfl hok
      exact h1 v (checkNonneg_eq_ok.2 ⟨rfl, by simpa [PassengerOk] using hok⟩)
  | spa =>
    rcases store_cases (obj := p) (checked := checkNonneg x .SpaIsNotValid) (put := fun x => { p with spa := x })
      (e := .SpaIsNotValid) (fun _ h => checkNonneg_error h) with ⟨y, h1, h2⟩ | ⟨h1, h2⟩
    · have := checkNonneg_eq_ok.1 h1
      refine .inl ⟨y, this.1, by simpa [PassengerOk] using this.2, ?_⟩
      simp only [Passenger.assign, h2, Passenger.read, true_and]
      intro a h; cases a <;> simp_all [Passenger.read]
    · refine .inr ⟨?_, h2⟩
      rintro v rfl hok
      exact h1 v (checkNonneg_eq_ok.2 ⟨rfl, by simpa [PassengerOk] using hok⟩)
  | spt =>
    rcases store_cases (obj := p) (checked := checkNonneg x .SptIsNotValid) (put := fun x => { p with spt := x })
      (e := .SptIsNotValid) (fun _ h => checkNonneg_error h) with ⟨y, h1, h2⟩ | ⟨h1, h2⟩
    · have := checkNonneg_eq_ok.1 h1
      refine .inl ⟨y, this.1, by simpa [PassengerOk] using this.2, ?_⟩
      simp only [Passenger.assign, h2, Passenger.read, true_and]
      intro a h; cases a <;> simp_all [Passenger.read]
    · refine .inr ⟨?_, h2⟩
      rintro v rfl hok
      exact h1 v (checkNonneg_eq_ok.2 ⟨rfl, by simpa [PassengerOk] using hok⟩)

theorem Passenger.new_eq_ok {va pv pw pa pt spv spw spa spt : Option K} {p : Passenger K} :
    Passenger.new va pv pw pa pt spv spw spa spt = .ok p ↔
      va = some p.va ∧ pv = some p.pv ∧ pw = some p.pw ∧ pa = some p.pa ∧ pt = some p.pt ∧ spv = some p.spv ∧
      spw = some p.spw ∧ spa = some p.spa ∧ spt = some p.spt ∧ ∀ a, PassengerOk a (p.read a) := by
  unfold Passenger.new
  simp only [py_bind_eq_ok, checkNonneg_eq_ok, checkPos_eq_ok, py_pure, Except.ok.injEq]
  constructor
  · rintro ⟨a1, ⟨rfl, h1⟩, a2, ⟨rfl, h2⟩, a3, ⟨rfl, h3⟩, a4, ⟨rfl, h4⟩, a5, ⟨rfl, h5⟩, a6, ⟨rfl, h6⟩, a7, ⟨rfl, h7⟩,
      a8, ⟨rfl, h8⟩, a9, ⟨rfl, h9⟩, rfl⟩
    refine ⟨rfl, rfl, rfl, rfl, rfl, rfl, rfl, rfl, rfl, ?_⟩
    intro a; cases a <;> simpa [PassengerOk, Passenger.read]
  · rintro ⟨rfl, rfl, rfl, rfl, rfl, rfl, rfl, rfl, rfl, h⟩
    have h1 := h .va; have h2 := h .pv; have h3 := h .pw; have h4 := h .pa; have h5 := h .pt
    have h6 := h .spv; have h7 := h .spw; have h8 := h .spa; have h9 := h .spt
    simp only [PassengerOk, Passenger.read, if_true, reduceCtorEq, if_false] at h1 h2 h3 h4 h5 h6 h7 h8 h9
    exact ⟨_, ⟨rfl, h1⟩, _, ⟨rfl, h2⟩, _, ⟨rfl, h3⟩, _, ⟨rfl, h4⟩, _, ⟨rfl, h5⟩, _, ⟨rfl, h6⟩, _, ⟨rfl, h7⟩,
      _, ⟨rfl, h8⟩, _, ⟨rfl, h9⟩, rfl⟩

/-! ### the manager as a dictionary -/

/-- the names and the modes of the manager are the keys and the values of a dictionary -/
structure ModeManager.Is (s : ModeManager K) (d : Dict Str (Mode K)) : Prop where
  names : s.names = d.map Prod.fst
  modes : s.modes = d.map Prod.snd
  nodup : (d.map Prod.fst).Nodup

theorem Dict.get?_eq_getElem? {α β : Type} [DecidableEq α] [BEq α] [LawfulBEq α] (d : Dict α β) (k : α) :
    d.get? k = (d.map Prod.snd)[(d.map Prod.fst).idxOf k]? := by
  induction d with
  | nil => simp [Dict.get?]
  | cons p t ih =>
    obtain ⟨k', v⟩ := p
    by_cases h : k' = k
    · subst h; simp [Dict.get?]
    · simp [Dict.get?, h, List.idxOf_cons_ne, ih]

theorem ModeManager.Is.getMode {s : ModeManager K} {d : Dict Str (Mode K)} (h : s.Is d) (n : Str) :
    s.getMode n = match d.get? n with | some m => .ok m | none => .error .ModeNotFound := by
  unfold ModeManager.getMode
  rw [Dict.get?_eq_getElem?, ← h.names, ← h.modes]
  have hl : s.names.length = s.modes.length := by rw [h.names, h.modes]; simp
  by_cases hn : n ∈ s.names
  · have : s.names.idxOf n < s.modes.length := by rw [← hl]; exact List.idxOf_lt_length_iff.2 hn
    simp [hn, List.getElem?_eq_getElem this]
  · have : s.names.idxOf n = s.modes.length := by rw [List.idxOf_eq_length_iff.2 hn, hl]
    rw [if_pos hn, this, List.getElem?_eq_none (Nat.le_refl _)]

/-- removing the first entry with key `k` -/
theorem eraseIdx_idxOf_fst {α β : Type} [DecidableEq α] [BEq α] [LawfulBEq α] (d : List (α × β)) (k : α)
    (hnd : (d.map Prod.fst).Nodup) :
    (d.map Prod.fst).eraseIdx ((d.map Prod.fst).idxOf k) = (d.filter (·.1 ≠ k)).map Prod.fst ∧
      (d.map Prod.snd).eraseIdx ((d.map Prod.fst).idxOf k) = (d.filter (·.1 ≠ k)).map Prod.snd := by
  induction d with
  | nil => simp
  | cons p t ih =>
    simp only [List.map_cons, List.nodup_cons, List.mem_map, not_exists, not_and] at hnd
    by_cases h : p.1 = k
    · subst h
      have hf : t.filter (·.1 ≠ p.1) = t := by
        rw [List.filter_eq_self]
        intro a ha; simpa using hnd.1 a ha
      rw [List.filter_cons_of_neg (by simp)]
      rw [hf]
      simp
    · have := ih hnd.2
      simp only [List.map_cons, ne_eq, h, not_false_eq_true, List.idxOf_cons_ne, List.eraseIdx_cons_succ,
        decide_true, List.filter_cons_of_pos]
      exact ⟨by rw [← this.1], by rw [← this.2]⟩

theorem ModeManager.Is.addMode {s : ModeManager K} {d : Dict Str (Mode K)} (h : s.Is d) {m : Mode K}
    (hm : m.name ∉ s.names) : (s.addMode m).1.Is (d ++ [(m.name, m)]) ∧ (s.addMode m).2 = none := by
  have hm' : m.name ∉ d.map Prod.fst := h.names ▸ hm
  unfold ModeManager.addMode
  rw [if_neg hm]
  refine ⟨⟨by simp [h.names], by simp [h.modes], ?_⟩, rfl⟩
  rw [List.map_append, List.nodup_append]
  refine ⟨h.nodup, by simp, ?_⟩
  intro a ha b hb
  simp only [List.map_cons, List.map_nil, List.mem_singleton] at hb
  subst hb
  intro e; exact hm' (e ▸ ha)

theorem ModeManager.Is.removeMode {s : ModeManager K} {d : Dict Str (Mode K)} (h : s.Is d) {n : Str}
    (hn : n ∈ s.names) : (s.removeMode n).1.Is (d.filter (·.1 ≠ n)) ∧ (s.removeMode n).2 = none := by
  have hl : s.names.length = s.modes.length := by rw [h.names, h.modes]; simp
  have hi : s.names.idxOf n < s.modes.length := by rw [← hl]; exact List.idxOf_lt_length_iff.2 hn
  unfold ModeManager.removeMode
  rw [if_pos hn, if_pos hi]
  have he := eraseIdx_idxOf_fst d n h.nodup
  refine ⟨⟨?_, ?_, ?_⟩, rfl⟩
  · show s.names.eraseIdx _ = _; rw [h.names]; exact he.1
  · show s.modes.eraseIdx _ = _; rw [h.names, h.modes]; exact he.2
  · exact h.nodup.sublist (List.filter_sublist.map _)

theorem ModeManager.Is.assignMode {s : ModeManager K} {d : Dict Str (Mode K)} (h : s.Is d) (oid : Nat)
    (a : ModeAssign K) :
    (s.assignMode oid a).Is (d.map fun p => (p.1, if p.2.oid = oid then (p.2.assign a).1 else p.2)) := by
  refine ⟨?_, ?_, ?_⟩
  · simp [ModeManager.assignMode, h.names, Function.comp_def]
  · simp [ModeManager.assignMode, h.modes, Function.comp_def]
  · simpa [Function.comp_def] using h.nodup

theorem defaultModes_names {oid : Nat} {l : List (Mode K)} (h : defaultModes oid = .ok l) :
    l.map (·.name) = ["bus".toList, "metro".toList] := by
  unfold defaultModes at h
  simp only [py_bind_eq_ok, Mode.new_eq_ok, py_pure, Except.ok.injEq] at h
  obtain ⟨b, ⟨_, hb, _⟩, m, ⟨_, hm, _⟩, rfl⟩ := h
  have h1 := hb.1; have h2 := hm.1
  simp only [busArgs, metroArgs, Option.some.injEq] at h1 h2
  simp [← h1, ← h2]

theorem ModeManager.Reachable.is {s : ModeManager K} (h : s.Reachable) : ∃ d : Dict Str (Mode K), s.Is d := by
  induction h with
  | @init oid b s h =>
    cases b with
    | false => simp [ModeManager.init] at h; subst h; exact ⟨[], ⟨rfl, rfl, by simp⟩⟩
    | true =>
      simp only [ModeManager.init, if_true, py_bind_eq_ok, py_pure, Except.ok.injEq] at h
      obtain ⟨l, hl, rfl⟩ := h
      refine ⟨l.map fun m => (m.name, m), ⟨by simp [Function.comp_def], by simp [Function.comp_def], ?_⟩⟩
      simp only [List.map_map, Function.comp_def]
      rw [defaultModes_names hl]
      decide
  | @call s h c ih =>
    obtain ⟨d, hd⟩ := ih
    cases c with
    | add m =>
      by_cases hm : m.name ∈ s.names
      · refine ⟨d, ?_⟩
        simpa [ManagerCall.run, ModeManager.addMode, hm] using hd
      · exact ⟨_, (hd.addMode hm).1⟩
    | remove n =>
      by_cases hn : n ∈ s.names
      · exact ⟨_, (hd.removeMode hn).1⟩
      · refine ⟨d, ?_⟩
        simpa [ManagerCall.run, ModeManager.removeMode, hn] using hd
    | assign oid a => exact ⟨_, hd.assignMode oid a⟩

theorem Dict.get?_append {α β : Type} [DecidableEq α] (d e : Dict α β) (k : α) :
    Dict.get? (d ++ e) k = (Dict.get? d k).or (Dict.get? e k) := by
  induction d with
  | nil => simp [Dict.get?]
  | cons p t ih =>
    obtain ⟨k', v⟩ := p
    by_cases h : k' = k
    · simp [Dict.get?, h]
    · simp only [List.cons_append, Dict.get?, h, if_false]; exact ih

theorem Dict.get?_filter_ne {α β : Type} [DecidableEq α] (d : Dict α β) (n k : α) :
    Dict.get? (d.filter (·.1 ≠ n)) k = if k = n then none else Dict.get? d k := by
  induction d with
  | nil => simp [Dict.get?]
  | cons p t ih =>
    obtain ⟨k', v⟩ := p
    by_cases h : k' = n
    · subst h
      rw [List.filter_cons_of_neg (by simp), ih]
      by_cases hk : k = k'
      · simp [hk]
      · simp [Dict.get?, hk, Ne.symm hk]
    · rw [List.filter_cons_of_pos (by simpa using h)]
      by_cases hk : k' = k
      · subst hk; simp [Dict.get?, h]
      · simp only [Dict.get?, hk, if_false]; exact ih

theorem Dict.get?_map_snd {α β γ : Type} [DecidableEq α] (d : Dict α β) (f : β → γ) (k : α) :
    Dict.get? (d.map fun p => (p.1, f p.2)) k = (Dict.get? d k).map f := by
  induction d with
  | nil => simp [Dict.get?]
  | cons p t ih =>
    obtain ⟨k', v⟩ := p
    by_cases h : k' = k
    · simp [Dict.get?, h]
    · simp only [List.map_cons, Dict.get?, h, if_false]; exact ih

theorem Dict.get?_isSome_iff {α β : Type} [DecidableEq α] (d : Dict α β) (k : α) :
    (d.get? k).isSome ↔ k ∈ d.map Prod.fst := by
  induction d with
  | nil => simp [Dict.get?]
  | cons p t ih =>
    obtain ⟨k', v⟩ := p
    by_cases h : k' = k
    · simp [Dict.get?, h]
    · simp only [Dict.get?, h, if_false, List.map_cons, List.mem_cons, ih, Ne.symm h, false_or]

end Sidermit
