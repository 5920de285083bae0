import Verif.Model.Results
import Verif.Proofs.ExtEdges

/-!
The search and the assignment read the values of time of the passenger only through two ratios.
-/

set_option linter.unusedSectionVars false

namespace Sidermit

variable {K : Type} [Field K] [LinearOrder K]

/-- two passengers that take the same decisions: they walk at the same speed, feel a transfer as the same time in the vehicle
and weigh waiting and access against the time in the vehicle alike -/
structure SameChoices (p q : Passenger K) : Prop where
  va : q.va = p.va
  pt : q.pt = p.pt
  pv : p.pv ≠ 0
  pv' : q.pv ≠ 0
  wait : q.pw / q.pv = p.pw / p.pv
  access : q.pa / q.pv = p.pa / p.pv

variable {p q : Passenger K}

theorem SameChoices.div_wait (h : SameChoices p q) (a : K) : pyDiv (a * q.pw) q.pv = pyDiv (a * p.pw) p.pv := by
  rw [(pyDiv_eq_ok (a := a * q.pw)).2 ⟨h.pv', rfl⟩, (pyDiv_eq_ok (a := a * p.pw)).2 ⟨h.pv, rfl⟩, mul_div_assoc, h.wait, mul_div_assoc]

theorem SameChoices.div_access (h : SameChoices p q) (a : K) : pyDiv (a * q.pa) q.pv = pyDiv (a * p.pa) p.pv := by
  rw [(pyDiv_eq_ok (a := a * q.pa)).2 ⟨h.pv', rfl⟩, (pyDiv_eq_ok (a := a * p.pa)).2 ⟨h.pv, rfl⟩, mul_div_assoc, h.access, mul_div_assoc]

theorem SameChoices.ratio (h : SameChoices p q) : pyDiv q.pa q.pv = pyDiv p.pa p.pv := by
  simpa using h.div_access 1

section Search

variable {nodes : ENodes K} {edges : List (EEdge K)} {o d : Option (CityNode K)}

theorem edgeTime_same (h : SameChoices p q) :
    edgeTime (⟨nodes, edges, q, o, d⟩ : HInput K) = edgeTime ⟨nodes, edges, p, o, d⟩ := by
  funext e n
  unfold edgeTime
  simp only [h.div_access]

theorem firstLine_same (h : SameChoices p q) :
    firstLine (⟨nodes, edges, q, o, d⟩ : HInput K) = firstLine ⟨nodes, edges, p, o, d⟩ := by
  funext e t f th st
  unfold firstLine
  simp only [h.div_wait]

theorem verifyLoop_same (h : SameChoices p q) :
    verifyLoop (⟨nodes, edges, q, o, d⟩ : HInput K) = verifyLoop ⟨nodes, edges, p, o, d⟩ := by
  have hc : checkLine (⟨nodes, edges, q, o, d⟩ : HInput K) = checkLine ⟨nodes, edges, p, o, d⟩ := by
    funext e b st
    unfold checkLine
    rw [edgeTime_same h]
  funext e fuel
  induction fuel with
  | zero => rfl
  | succ n ih =>
    funext k st
    unfold verifyLoop
    rw [hc, ih]

theorem relaxEdge_same (h : SameChoices p q) :
    relaxEdge (⟨nodes, edges, q, o, d⟩ : HInput K) = relaxEdge ⟨nodes, edges, p, o, d⟩ := by
  have hl : relaxLine (⟨nodes, edges, q, o, d⟩ : HInput K) = relaxLine ⟨nodes, edges, p, o, d⟩ := by
    funext e t st
    unfold relaxLine
    rw [firstLine_same h]
  funext v st e
  unfold relaxEdge
  rw [edgeTime_same h, hl, verifyLoop_same h]

theorem buildHyperpath_same (h : SameChoices p q) :
    buildHyperpath (⟨nodes, edges, q, o, d⟩ : HInput K) = buildHyperpath ⟨nodes, edges, p, o, d⟩ := by
  have hp : popStep (⟨nodes, edges, q, o, d⟩ : HInput K) = popStep ⟨nodes, edges, p, o, d⟩ := by
    funext st k
    unfold popStep process inEdges HInput.usable
    simp only [relaxEdge_same h]
  have hm : mainLoop (⟨nodes, edges, q, o, d⟩ : HInput K) = mainLoop ⟨nodes, edges, p, o, d⟩ := by
    unfold mainLoop
    rw [hp]
  have hf : finish (⟨nodes, edges, q, o, d⟩ : HInput K) = finish ⟨nodes, edges, p, o, d⟩ := by
    have hl : finalLabel (⟨nodes, edges, q, o, d⟩ : HInput K) = finalLabel ⟨nodes, edges, p, o, d⟩ := by
      funext st n
      unfold finalLabel
      simp only [mul_div_assoc, h.access]
    funext st
    unfold finish
    simp only [h.div_access, hl]
  unfold buildHyperpath
  rw [hm, hf]

theorem hyperpathOD_same (h : SameChoices p q) :
    hyperpathOD (⟨nodes, edges, q, o, d⟩ : HInput K) = hyperpathOD ⟨nodes, edges, p, o, d⟩ := by
  funext a b
  unfold hyperpathOD
  simp only [buildHyperpath_same h]
  rfl

theorem networkValidator_same (h : SameChoices p q) :
    networkValidator nodes edges q = networkValidator nodes edges p := by
  have hc : checkPair nodes edges q = checkPair nodes edges p := by
    funext a b
    unfold checkPair
    simp only [buildHyperpath_same h]
  have hr : checkRow nodes edges q = checkRow nodes edges p := by
    funext r
    unfold checkRow checkCell
    rw [hc]
  funext od
  unfold networkValidator
  rw [hr]

theorem allHyperpaths_same (h : SameChoices p q) :
    allHyperpaths nodes edges q = allHyperpaths nodes edges p := by
  have hc : odResult nodes edges q = odResult nodes edges p := by
    funext a b v
    unfold odResult
    simp only [hyperpathOD_same h]
  have hr : odAll nodes edges q = odAll nodes edges p := by
    funext od
    unfold odAll odRow odCell
    rw [hc]
  funext od
  unfold allHyperpaths
  rw [networkValidator_same h, hr]

end Search

theorem getAssignment_same (h : SameChoices p q) (l : List (ODResult K)) (w v : K) :
    getAssignment l w v q.pa q.pv = getAssignment l w v p.pa p.pv := by
  unfold getAssignment
  congr 1
  funext e
  unfold sharesOf sharesTwo sharesFirst sharesSecond
  simp only [h.ratio]

section Whole

variable [PyMath K]

/-- the optimizer with another passenger -/
def Optimizer.withPassenger (o : Optimizer K) (q : Passenger K) : Optimizer K := { o with pas := q }

theorem prepare_same (h : SameChoices p q) (g : Graph K) (dm : Demand K) (net : Network K) (f : Option (Dict Str K)) :
    Optimizer.prepare g dm q net f = (Optimizer.prepare g dm p net f).map fun o => o.withPassenger q := by
  unfold Optimizer.prepare
  simp only [allHyperpaths_same h, getAssignment_same h, h.pt, h.va]
  cases buildExtGraph g net.routes p.pt (some (f0 net.routes f).f) with
  | error e => rfl
  | ok x =>
    simp only [py_ok_bind]
    cases allHyperpaths x.nodes x.edges p dm.matrix with
    | error e => rfl
    | ok res =>
      simp only [py_ok_bind]
      cases widthOf g with
      | error e => rfl
      | ok w =>
        simp only [py_ok_bind]
        cases getAssignment res w p.va p.pa p.pv with
        | error e => rfl
        | ok s => rfl

theorem init_same (h : SameChoices p q) (g : Graph K) (dm : Demand K) (net : Network K) (f : Option (Dict Str K)) :
    Optimizer.init g dm q net f = (Optimizer.init g dm p net f).map fun o => o.withPassenger q := by
  unfold Optimizer.init
  rw [prepare_same h]
  cases Optimizer.prepare g dm p net f with
  | error e => rfl
  | ok o =>
    simp only [Except.map, py_ok_bind]
    have : (o.withPassenger q).constrains (o.withPassenger q).fopt = o.constrains o.fopt := rfl
    rw [this]
    cases o.constrains o.fopt with
    | error e => rfl
    | ok c => rfl

end Whole

end Sidermit
