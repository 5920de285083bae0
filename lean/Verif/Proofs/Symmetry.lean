import Verif.Props.Ring

/-!
Lemmas for C82: networks that look the same after a symmetry of the city.
-/

set_option linter.unusedSectionVars false
set_option linter.unusedVariables false

namespace Sidermit

section Generic

variable {K : Type} [Field K] [LinearOrder K] [IsStrictOrderedRing K] [PyMath K] {g : Graph K}
  {routes rs : List (Route K)} {sPTP : K} {freq : Option (Dict Str K)} {x x' : ExtGraph K} {pas : Passenger K} {f : Int → Int}

/-- `f` maps the ids of the nodes of the city to ids of nodes, one to one, and keeps all distances -/
structure Symmetry (g : Graph K) (f : Int → Int) : Prop where
  inj : ∀ a b, f a = f b → a = b
  onto : ∀ b, ∃ a, f a = b
  inside : ∀ c : CityNode K, c.In g → ∃ c' : CityNode K, c'.In g ∧ c'.node.id = f c.node.id
  reached : ∀ c' : CityNode K, c'.In g → ∃ c : CityNode K, c.In g ∧ c'.node.id = f c.node.id
  apart : ∀ a b a' b' : CityNode K, a.In g → b.In g → a'.In g → b'.In g → a'.node.id = f a.node.id → b'.node.id = f b.node.id →
    nodeDistance a'.node b'.node = nodeDistance a.node b.node

/-- the line `mid` is the image of `r` -/
structure ImageLine (f : Int → Int) (b : Bool) (r mid : Route K) : Prop where
  mode : mid.mode = r.mode
  circular : mid.type = .circular ↔ r.type = .circular
  ways : ∀ d, mid.nodesOf (Dir.flip b d) = (r.nodesOf d).map f ∧ mid.stopsOf (Dir.flip b d) = (r.stopsOf d).map f

/-- the line `r'` is the image of `r`, up to its id, the names of the directions and the stop where the description begins -/
def LooksLike (f : Int → Int) (r r' : Route K) : Prop := ∃ (b : Bool) (mid : Route K), ImageLine f b r mid ∧ SameLine mid r'

open Classical in
/-- the node with the id wanted -/
noncomputable def imageNode (g : Graph K) (f : Int → Int) (c : CityNode K) : CityNode K :=
  if h : ∃ c' : CityNode K, c'.In g ∧ c'.node.id = f c.node.id then h.choose else c

theorem Symmetry.image (h : Symmetry g f) {c : CityNode K} (hc : c.In g) :
    (imageNode g f c).In g ∧ (imageNode g f c).node.id = f c.node.id := by
  have he := h.inside c hc
  unfold imageNode
  rw [dif_pos he]
  exact he.choose_spec

theorem SameLine.facts {r r' : Route K} (h : SameLine r r') : r'.id = r.id ∧ r'.mode = r.mode := by
  rcases h with rfl | ⟨h1, h2, _⟩
  · exact ⟨rfl, rfl⟩
  · exact ⟨h1, h2⟩

theorem frequencies_perm (hp : rs.Perm routes) (hids : (routes.map Route.id).Nodup) {r : Route K} (hr : r ∈ routes) :
    (frequencies rs freq).getD r.id 0 = (frequencies routes freq).getD r.id 0 := by
  cases freq with
  | some f => rfl
  | none =>
    simp only [frequencies]
    rw [defaultFrequencies_getD hids hr, defaultFrequencies_getD ((hp.map Route.id).nodup_iff.2 hids) (hp.mem_iff.2 hr)]

theorem mids_exist (h : List.Forall₂ (LooksLike f) routes rs) :
    ∃ mids, List.Forall₂ (fun r m => ∃ b, ImageLine f b r m) routes mids ∧ List.Forall₂ SameLine mids rs := by
  induction h with
  | nil => exact ⟨[], .nil, .nil⟩
  | cons h1 _ ih =>
    obtain ⟨b, m, h2, h3⟩ := h1
    obtain ⟨ms, h4, h5⟩ := ih
    exact ⟨m :: ms, .cons ⟨b, h2⟩ h4, .cons h3 h5⟩

theorem sameLine_ids {mids : List (Route K)} (h : List.Forall₂ SameLine mids rs) : rs.map Route.id = mids.map Route.id := by
  induction h with
  | nil => rfl
  | cons h1 _ ih => rw [List.map_cons, List.map_cons, ih, h1.facts.1]

open Classical in
/-- the line at the same place of the second list -/
noncomputable def lineAt (routes mids : List (Route K)) (r : Route K) : Route K := (mids[routes.idxOf r]?).getD r

open Classical in
/-- the directions are exchanged -/
noncomputable def exchanged (f : Int → Int) (line : Route K → Route K) (r : Route K) : Bool :=
  if h : ∃ b, ImageLine f b r (line r) then h.choose else false

theorem lineAt_spec {R : Route K → Route K → Prop} {mids : List (Route K)} (hnd : routes.Nodup) (h : List.Forall₂ R routes mids)
    {i : Nat} {r : Route K} (hr : routes[i]? = some r) : mids[i]? = some (lineAt routes mids r) ∧ R r (lineAt routes mids r) := by
  classical
  obtain ⟨l1, e1⟩ := List.getElem?_eq_some_iff.1 hr
  have l2 : i < mids.length := by rw [← h.length_eq]; exact l1
  have hidx : routes.idxOf r = i := by
    rw [← e1]
    exact hnd.idxOf_getElem i l1
  have hm : mids[i]? = some (lineAt routes mids r) := by
    unfold lineAt
    rw [hidx, List.getElem?_eq_getElem l2]
    rfl
  refine ⟨hm, ?_⟩
  have hR : R routes[i] mids[i] := h.get l1 l2
  rw [List.getElem?_eq_getElem l2] at hm
  rw [e1, Option.some.inj hm] at hR
  exact hR

theorem image_renames (hg : DistinctIds g) (hs : Symmetry g f) {mids : List (Route K)} (hids : (routes.map Route.id).Nodup)
    (hids' : (mids.map Route.id).Nodup) (h : List.Forall₂ (fun r m => ∃ b, ImageLine f b r m) routes mids)
    (hfreq : List.Forall₂ (fun r m => (frequencies mids freq).getD m.id 0 = (frequencies routes freq).getD r.id 0) routes mids) :
    Renames ⟨exchanged f (lineAt routes mids), f, imageNode g f, id, lineAt routes mids⟩ g g routes mids freq freq := by
  have hnd : routes.Nodup := List.Nodup.of_map _ hids
  have hnd' : mids.Nodup := List.Nodup.of_map _ hids'
  have hline : ∀ r ∈ routes, ImageLine f (exchanged f (lineAt routes mids) r) r (lineAt routes mids r) := by
    intro r hr
    obtain ⟨i, hi⟩ := List.mem_iff_getElem?.1 hr
    have he := (lineAt_spec hnd h hi).2
    unfold exchanged
    rw [dif_pos he]
    exact he.choose_spec
  refine ⟨hs.inj, hs.onto, fun c hc => hs.image hc, ?_, ?_, ⟨hnd, hnd'⟩, ?_, ?_, ?_, fun r hr => (hline r hr).mode,
    fun r _ r' _ e => e, fun r hr => ⟨rfl, rfl, rfl, rfl⟩, fun r hr => (hline r hr).circular, fun r hr d => (hline r hr).ways d, ?_⟩
  · intro c c' hc hc'
    exact hs.apart c c' _ _ hc hc' (hs.image hc).1 (hs.image hc').1 (hs.image hc).2 (hs.image hc').2
  · intro c' hc'
    obtain ⟨c, hc, he⟩ := hs.reached c' hc'
    exact ⟨c, hc, CityNode.In.ext hg (hs.image hc).1 hc' ((hs.image hc).2.trans he.symm)⟩
  · intro r hr
    obtain ⟨i, hi⟩ := List.mem_iff_getElem?.1 hr
    exact List.mem_of_getElem? (lineAt_spec hnd h hi).1
  · intro m hm
    obtain ⟨i, hi⟩ := List.mem_iff_getElem?.1 hm
    have l2 := (List.getElem?_eq_some_iff.1 hi).1
    have l1 : i < routes.length := by rw [h.length_eq]; exact l2
    refine ⟨routes[i], List.getElem_mem l1, ?_⟩
    have := (lineAt_spec hnd h (List.getElem?_eq_getElem l1)).1
    rw [hi] at this
    exact (Option.some.inj this).symm
  · intro r hr r' hr' he
    obtain ⟨i, hi⟩ := List.mem_iff_getElem?.1 hr
    obtain ⟨j, hj⟩ := List.mem_iff_getElem?.1 hr'
    have h1 := (lineAt_spec hnd h hi).1
    have h2 := (lineAt_spec hnd h hj).1
    change lineAt routes mids r = lineAt routes mids r' at he
    rw [he] at h1
    obtain ⟨l1, e1⟩ := List.getElem?_eq_some_iff.1 h1
    obtain ⟨l2, e2⟩ := List.getElem?_eq_some_iff.1 h2
    have hij := (List.Nodup.getElem_inj_iff hnd').1 (e1.trans e2.symm)
    rw [hij, hj] at hi
    exact (Option.some.inj hi).symm
  · intro r hr
    obtain ⟨i, hi⟩ := List.mem_iff_getElem?.1 hr
    exact (lineAt_spec hnd hfreq hi).2

theorem perm_renames (hids : (routes.map Route.id).Nodup) (hp : rs.Perm routes) :
    Renames ⟨fun _ => false, id, id, id, id⟩ g g rs routes freq freq where
  ids := fun _ _ e => e
  id_onto := fun b => ⟨b, rfl⟩
  inside := fun c hc => ⟨hc, rfl⟩
  apart := fun _ _ _ _ => rfl
  onto := fun c hc => ⟨c, hc, rfl⟩
  once := ⟨hp.nodup_iff.2 (List.Nodup.of_map _ hids), List.Nodup.of_map _ hids⟩
  lines := fun r hr => hp.mem_iff.1 hr
  all := fun r hr => ⟨r, hp.mem_iff.2 hr, rfl⟩
  different := fun _ _ _ _ e => e
  mode := fun _ _ => rfl
  modes := fun _ _ _ _ e => e
  same := fun _ _ => ⟨rfl, rfl, rfl, rfl⟩
  circular := fun _ _ => Iff.rfl
  ways := fun r _ d => ⟨(List.map_id _).symm, (List.map_id _).symm⟩
  freqs := fun r hr => (frequencies_perm hp hids (hp.mem_iff.1 hr)).symm

theorem fits_image {b : Bool} {r m : Route K} (hs : Symmetry g f) (h : ImageLine f b r m) (hr : r.Fits g) : m.Fits g := by
  have hback : ∀ {d i id}, m.NodeAt d i id → ∃ a, id = f a ∧ r.NodeAt (Dir.flip b d) i a := by
    intro d i id hn
    obtain ⟨h1, h2⟩ := hn
    have hw := (h.ways (Dir.flip b d)).2
    rw [Dir.flip_flip] at hw
    rw [hw, List.getElem?_map] at h1
    cases ha : (r.stopsOf (Dir.flip b d))[i]? with
    | none => rw [ha] at h1; simp at h1
    | some a =>
      rw [ha] at h1
      simp only [Option.map_some, Option.some.injEq] at h1
      exact ⟨a, h1.symm, ha, fun hc => h2 (h.circular.2 hc)⟩
  refine ⟨fun d i id hn => ?_, fun hc d i id hn => ?_, by rw [h.mode]; exact hr.lines, by rw [h.mode]; exact hr.speed⟩
  · obtain ⟨a, rfl, ha⟩ := hback hn
    obtain ⟨c, hc, rfl⟩ := hr.stops _ _ _ ha
    obtain ⟨j, hj⟩ := List.mem_iff_getElem?.1 hc
    obtain ⟨c', h1, h2⟩ := hs.inside ⟨j, c⟩ hj
    exact ⟨c'.node, List.mem_of_getElem? h1, h2⟩
  · obtain ⟨a, rfl, ha⟩ := hback hn
    have h1 := hr.nodes (fun e => hc (h.circular.2 e)) _ _ _ ha
    have hw := (h.ways (Dir.flip b d)).1
    rw [Dir.flip_flip] at hw
    rw [hw]
    simpa using h1

theorem fits_perm (hp : rs.Perm routes) (h : ∀ r ∈ routes, r.Fits g) : ∀ r ∈ rs, r.Fits g := fun r hr => h r (hp.mem_iff.1 hr)

end Generic

end Sidermit
