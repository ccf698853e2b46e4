import Verif.Props.Mirror
import Verif.Lemmas.Turned
import Verif.Props.Moved

/-!
# C122 — observations in a mirror

What an agent sees in the reflected scene.
-/

noncomputable section
open Classical
namespace HighwayEnv
open Spec

theorem Vec2.mirror_inj {p q : Vec2} : p.mirror = q.mirror ↔ p = q :=
  ⟨fun h => by rw [← Vec2.mirror_mirror p, h, Vec2.mirror_mirror], fun h => by rw [h]⟩

/-- What a mirror does to a description by `to_dict`. -/
def mirrorDict (d : Dict String ℝ) : Dict String ℝ := d.map fun fx => (fx.1, mirrorFeature fx.1 fx.2)

theorem get?_mirrorDict (d : Dict String ℝ) (f : String) : Dict.get? (mirrorDict d) f = (Dict.get? d f).map (mirrorFeature f) := by
  induction d with
  | nil => rfl
  | cons kv d ih =>
    simp only [mirrorDict, List.map_cons, Dict.get?] at ih ⊢
    by_cases hk : kv.1 = f
    · rw [if_pos hk, if_pos hk, hk]; rfl
    · rw [if_neg hk, if_neg hk]; exact ih

namespace Vehicle

theorem destination_m (g : Graph) (v : Vehicle) : v.mirror.destination g.mirror = (v.destination g).map Vec2.mirror := by
  unfold destination
  by_cases h : v.kind.isControlled = true
  · rw [if_pos h, if_pos (show v.mirror.kind.isControlled = true from h)]
    show (match v.route with | some (s :: rest) => _ | _ => _) = _
    cases v.route with
    | none => rfl
    | some l =>
      cases l with
      | nil => rfl
      | cons s rest =>
        simp only [Graph.getLaneStep_m]
        cases g.getLaneStep ((s :: rest).getLast (by simp)) with
        | error e => rfl
        | ok l =>
          simp only [Except.map, bind, Except.bind, pure, Except.pure]
          have e := Lane.position_m l l.length 0
          rw [neg_zero] at e
          show Except.ok (l.mirror.position l.mirror.length 0) = _
          rw [Lane.length_m, e]
  · rw [if_neg h, if_neg (show ¬ v.mirror.kind.isControlled = true from h)]; rfl

theorem destinationDirection_m (g : Graph) (v : Vehicle) :
    v.mirror.destinationDirection g.mirror = (v.destinationDirection g).map Vec2.mirror := by
  unfold destinationDirection
  rw [destination_m]
  cases v.destination g with
  | error e => rfl
  | ok d =>
    simp only [Except.map, bind, Except.bind]
    have hp : v.mirror.pos = v.pos.mirror := rfl
    rw [hp]
    by_cases h : d = v.pos
    · rw [if_neg (by simp [h]), if_neg (by simp [h])]
      simp [pure, Except.pure, Vec2.mirror]
    · rw [if_pos (by rw [ne_eq, Vec2.mirror_inj]; exact h), if_pos h]
      simp only [← Vec2.mirror_sub, Vec2.norm_mirror, pure, Except.pure]
      congr 1
      ext
      · simp only [Vec2.mirror]
      · simp only [Vec2.mirror]; ring

theorem absDict_m (g : Graph) (v : Vehicle) (b : Bool) : v.mirror.absDict g.mirror b = (v.absDict g b).map mirrorDict := by
  unfold absDict
  rw [destinationDirection_m]
  cases v.destinationDirection g with
  | error e => rfl
  | ok d =>
    have h1 : v.mirror.velocity = v.velocity.mirror := by
      show v.speed • Vec2.dir (-v.heading) = (v.speed • Vec2.dir v.heading).mirror
      rw [Vec2.dir_mirror, Vec2.mirror_smul]
    have h2 : v.mirror.direction = v.direction.mirror := Vec2.dir_mirror _
    have h3 : v.mirror.pos = v.pos.mirror := rfl
    have h4 : v.mirror.heading = -v.heading := rfl
    simp only [Except.map, bind, Except.bind, pure, Except.pure, h1, h2, h3, h4]
    unfold mirrorDict
    cases b <;> simp [mirrorFeature, sideways, Vec2.mirror]

theorem toDict_m (g : Graph) (v : Vehicle) (o : Option Vehicle) (b : Bool) :
    v.mirror.toDict g.mirror (o.map Vehicle.mirror) b = (v.toDict g o b).map mirrorDict := by
  unfold toDict
  rw [absDict_m]
  cases o with
  | none => cases v.absDict g b <;> rfl
  | some w =>
    simp only [Option.map_some, absDict_m]
    unfold absDict
    cases v.destinationDirection g with
    | error e => rfl
    | ok d =>
      cases w.destinationDirection g with
      | error e => rfl
      | ok d' =>
        simp only [Except.map, bind, Except.bind, pure, Except.pure]
        congr 1
        unfold mirrorDict
        simp [relativeTo, Dict.setItem, Dict.get?, mirrorFeature, sideways]
        try constructor <;> ring

end Vehicle

namespace Road
variable {P : Set Vec2} {L : Set Lane} (hPL : ∀ l ∈ L, ∀ p ∈ P, HasImage l p)
include hPL

theorem closeVehiclesTo_m {r : Road} (hr : ∀ w ∈ r.vehicles, w.pos ∈ P) {v : Vehicle} (hv : v.pos ∈ P) (hl : v.lane ∈ L) (d : ℝ) (c : Option Int) (b : Bool) :
    r.mirror.closeVehiclesTo v.mirror d c b = (r.closeVehiclesTo v d c b).map Vehicle.mirror := by
  have hd : ∀ w ∈ r.vehicles, v.mirror.laneDistanceTo w.mirror.pos = v.laneDistanceTo w.pos := fun w hw =>
    Vehicle.laneDistanceTo_m (hPL _ hl _ (hr w hw)) (hPL _ hl _ hv)
  unfold closeVehiclesTo
  have h : (r.mirror.vehicles.filter fun w =>
      decide ((w.pos - v.mirror.pos).norm < d) && decide (w.uid ≠ v.mirror.uid) &&
      (b || decide (-2 * Vehicle.LENGTH < v.mirror.laneDistanceTo w.pos))) =
      (r.vehicles.filter fun w => decide ((w.pos - v.pos).norm < d) && decide (w.uid ≠ v.uid) &&
      (b || decide (-2 * Vehicle.LENGTH < v.laneDistanceTo w.pos))).map Vehicle.mirror := by
    rw [vehicles_m, List.filter_map]
    congr 1
    apply List.filter_congr
    intro w hw
    simp only [Function.comp, hd w hw]
    have : (w.mirror.pos - v.mirror.pos).norm = (w.pos - v.pos).norm := by
      show (w.pos.mirror - v.pos.mirror).norm = _
      rw [← Vec2.mirror_sub, Vec2.norm_mirror]
    rw [this]
    rfl
  simp only [h]
  have h2 : ∀ l : List Vehicle, (∀ w ∈ l, w ∈ r.vehicles) → (l.map Vehicle.mirror).mergeSort
      (fun a b => decide (|v.mirror.laneDistanceTo a.pos| ≤ |v.mirror.laneDistanceTo b.pos|)) =
      (l.mergeSort (fun a b => decide (|v.laneDistanceTo a.pos| ≤ |v.laneDistanceTo b.pos|))).map Vehicle.mirror := by
    intro l hl
    symm
    apply List.map_mergeSort
    intro a ha b hb
    simp only [hd a (hl a ha), hd b (hl b hb)]
  simp only [h2 _ fun w hw => (List.mem_filter.1 hw).1]
  cases c with
  | none => rfl
  | some n =>
    cases n with
    | ofNat k =>
      cases k with
      | zero => rfl
      | succ k =>
        simp only [Int.ofNat_eq_natCast, List.length_map, List.map_take, apply_ite (List.map Vehicle.mirror)]
    | negSucc k => simp only [List.length_map, List.map_take, apply_ite (List.map Vehicle.mirror)]

theorem timeToCollision_m {v w : Vehicle} (hv : v.pos ∈ P) (hl : v.lane ∈ L) (hw : w.pos ∈ P) (s m : ℝ) :
    timeToCollision v.mirror w.mirror s m = timeToCollision v w s m := by
  unfold timeToCollision
  have h : v.mirror.laneDistanceTo w.mirror.pos = v.laneDistanceTo w.pos :=
    Vehicle.laneDistanceTo_m (hPL _ hl _ hw) (hPL _ hl _ hv)
  have h2 : ∀ v : Vehicle, v.mirror.direction = v.direction.mirror := fun v => Vec2.dir_mirror _
  rw [h, h2, h2, Vec2.dot_mirror]
  rfl

omit hPL in
theorem allSideLanes_m (g : Graph) (i : LaneIndex) : g.mirror.allSideLanes i = g.allSideLanes i := by
  unfold Graph.allSideLanes
  rw [Graph.lanesOf_m]
  cases g.lanesOf i.src i.dst with
  | error e => rfl
  | ok ls => simp [Except.map, bind, Except.bind]

omit hPL in
theorem isConnectedRoad_m (g : Graph) (a b : RouteStep) (route : Option (List RouteStep)) (sameLane : Bool) (depth : ℕ) :
    g.mirror.isConnectedRoad a b route sameLane depth = g.isConnectedRoad a b route sameLane depth := by
  have hs : ∀ n, g.mirror.succs n = g.succs n := by
    intro n
    unfold Graph.succs
    rw [Graph.get?_m]
    cases Dict.get? g n with
    | none => rfl
    | some d => exact Dict.keys_map _ d
  exact Graph.isConnectedRoad_congr g _ hs a b route sameLane depth

theorem ttcOther_m (g : Graph) {v w : Vehicle} (hv : v.pos ∈ P) (hl : v.lane ∈ L) (hw : w.pos ∈ P) (q : ℝ) (h : ℕ) (s : ℝ) (grid : Grid3) :
    ttcOther g.mirror v.mirror q h s grid w.mirror = ttcOther g v q h s grid w := by
  have hp : ttcPoint g.mirror v.mirror w.mirror q h s = ttcPoint g v w q h s := by
    funext grid mc
    unfold ttcPoint expectedLanes
    simp only [timeToCollision_m hPL hv hl hw, isConnectedRoad_m, allSideLanes_m]
    rfl
  unfold ttcOther
  rw [hp]
  by_cases hu : w.uid = v.uid ∨ s = w.speed
  · rw [if_pos hu]; exact if_pos hu
  · rw [if_neg hu]; exact if_neg hu

theorem computeTtcGrid_m (G : Globals) {r : Road} (hr : ∀ w ∈ r.vehicles, w.pos ∈ P) (i : LaneIndex) {v : Vehicle} (hv : v.pos ∈ P) (hvl : v.lane ∈ L)
    (q horizon : ℝ) : computeTtcGrid G r.mirror i v.mirror q horizon = computeTtcGrid G r i v q horizon := by
  have hl : ∀ (h : ℕ) (s : ℝ) (l : List Vehicle), (∀ w ∈ l, w ∈ r.vehicles) → ∀ (grid : Grid3),
      (l.map Vehicle.mirror).foldlM (ttcOther r.network.mirror v.mirror q h s) grid = l.foldlM (ttcOther r.network v q h s) grid := by
    intro h s l
    induction l with
    | nil => intro _ _; rfl
    | cons w l ih =>
      intro hm grid
      simp only [List.map_cons, List.foldlM_cons, ttcOther_m hPL r.network hv hvl (hr w (hm w (.head _)))]
      exact congrArg _ (funext fun g => ih (fun x hx => hm x (.tail _ hx)) g)
  unfold computeTtcGrid
  simp only [Road.network_m, Road.vehicles_m, allSideLanes_m, hl _ _ r.vehicles fun _ h => h]
  rfl

end Road

namespace Props

/-- **C122.** The description of a vehicle by `to_dict`, absolute or relative to another vehicle, with or without intentions, in the mirrored world:
ordinate, sideways velocity, heading, its sine and the sideways destination are opposite, everything else is the same; the exceptions too. -/
theorem mirrored_description (g : Graph) (v : Vehicle) (o : Option Vehicle) (b : Bool) :
    v.mirror.toDict g.mirror (o.map Vehicle.mirror) b = (v.toDict g o b).map fun d => d.map fun fx => (fx.1, mirrorFeature fx.1 fx.2) :=
  Vehicle.toDict_m g v o b

/-- **C122.** The vehicles that are seen, and their order, are the same in the mirror. -/
theorem mirrored_close (r : Road) (v : Vehicle) (hv : HasImage v.lane v.pos) (hr : ∀ w ∈ r.vehicles, HasImage v.lane w.pos) (d : ℝ)
    (count : Option Int) (seeBehind : Bool) :
    r.mirror.closeVehiclesTo v.mirror d count seeBehind = (r.closeVehiclesTo v d count seeBehind).map Vehicle.mirror :=
  Road.closeVehiclesTo_m (P := {p | HasImage v.lane p}) (L := {v.lane}) (fun l hl p hp => by rcases hl with rfl; exact hp) hr hv rfl d count seeBehind

/-- **C122.** The time-to-collision observation is the same in the mirror, lane by lane; the exceptions too. -/
theorem mirrored_ttc (G : Globals) (r : Road) (i : LaneIndex) (v : Vehicle) (hv : HasImage v.lane v.pos) (hr : ∀ w ∈ r.vehicles, HasImage v.lane w.pos)
    (horizon pf : ℝ) : ttcObserve G r.mirror i v.mirror horizon pf = ttcObserve G r i v horizon pf := by
  have h := fun q => Road.computeTtcGrid_m (P := {p | HasImage v.lane p}) (L := {v.lane}) (fun l hl p hp => by rcases hl with rfl; exact hp) G hr i
    hv rfl q horizon
  unfold ttcObserve
  simp only [h]
  rfl

/-- **C122.** And so is the finite Markov decision process. -/
theorem mirrored_mdp (G : Globals) (r : Road) (v : Vehicle) (w : MdpWeights) (hv : HasImage v.lane v.pos) (hr : ∀ w ∈ r.vehicles, HasImage v.lane w.pos)
    (q horizon : ℝ) : finiteMdp G r.mirror v.mirror w q horizon = finiteMdp G r v w q horizon := by
  have h := fun i => Road.computeTtcGrid_m (P := {p | HasImage v.lane p}) (L := {v.lane}) (fun l hl p hp => by rcases hl with rfl; exact hp) G hr i
    hv rfl q horizon
  unfold finiteMdp
  have hi : v.mirror.laneIndex = v.laneIndex := rfl
  simp only [hi, h]
  rfl

private theorem select_m (fs : List String) (d : Dict String ℝ) : selectFeatures fs (mirrorDict d) = (selectFeatures fs d).map (mirrorRow fs) := by
  unfold selectFeatures
  induction fs with
  | nil => rfl
  | cons f fs ih =>
    have e : Dict.getItem (mirrorDict d) f = (Dict.getItem d f).map (mirrorFeature f) := by
      unfold Dict.getItem
      rw [get?_mirrorDict]
      cases Dict.get? d f <;> rfl
    rw [List.mapM_cons, List.mapM_cons, ih, e]
    cases Dict.getItem d f with
    | error x => rfl
    | ok x =>
      simp only [Except.map, bind, Except.bind]
      cases List.mapM (fun f => Dict.getItem d f) fs <;> rfl

private theorem toDict_select_m (fs : List String) (g : Graph) (v : Vehicle) (o : Option Vehicle) (b : Bool) :
    (v.mirror.toDict g.mirror (o.map Vehicle.mirror) b).bind (selectFeatures fs) = ((v.toDict g o b).bind (selectFeatures fs)).map (mirrorRow fs) := by
  rw [Vehicle.toDict_m]
  cases v.toDict g o b with
  | error x => rfl
  | ok d => exact select_m fs d

private theorem traffic_m (r : Road) (ego : Vehicle) (cfg : KinematicsConfig) (hv : HasImage ego.lane ego.pos) (hr : ∀ w ∈ r.vehicles, HasImage ego.lane w.pos) :
    Kinematics.traffic r.mirror ego.mirror cfg = (Kinematics.traffic r ego cfg).map (List.map (mirrorRow cfg.features)) := by
  unfold Kinematics.traffic
  dsimp only
  rw [mirrored_close r ego hv hr]
  have hsl : ∀ (l : List Vehicle) (k : Int), sliceFrom (l.map Vehicle.mirror) k = (sliceFrom l k).map Vehicle.mirror := by
    intro l k
    unfold sliceFrom
    rw [apply_ite (List.map Vehicle.mirror)]
    simp only [List.length_map, List.map_drop]
  have ho : (if cfg.absolute = true then none else some ego.mirror) = (if cfg.absolute = true then none else some ego).map Vehicle.mirror := by
    by_cases ha : cfg.absolute = true
    · rw [if_pos ha, if_pos ha]; rfl
    · rw [if_neg ha, if_neg ha]; rfl
  rw [hsl, ho]
  generalize sliceFrom _ _ = l
  generalize (if cfg.absolute = true then none else some ego) = o
  induction l with
  | nil => rfl
  | cons w l ih =>
    rw [List.map_cons, List.mapM_cons, List.mapM_cons, ih]
    show Except.bind (Except.bind (w.mirror.toDict r.network.mirror (o.map Vehicle.mirror) cfg.observeIntentions) (selectFeatures cfg.features)) _ =
      Except.map _ (Except.bind (Except.bind (w.toDict r.network o cfg.observeIntentions) (selectFeatures cfg.features)) _)
    rw [toDict_select_m]
    cases Except.bind (w.toDict r.network o cfg.observeIntentions) (selectFeatures cfg.features) with
    | error x => rfl
    | ok row =>
      generalize (List.mapM (fun v : Vehicle => (do
        let d ← v.toDict r.network o cfg.observeIntentions
        selectFeatures cfg.features d : Py (List ℝ))) l : Py (List (List ℝ))) = m
      cases m <;> rfl

private theorem normalize_m (clip : Bool) {b : ℝ} (hb : b ≠ 0) (x : ℝ) :
    Kinematics.normalizeValue clip (-b, b) (-x) = -Kinematics.normalizeValue clip (-b, b) x := by
  unfold Kinematics.normalizeValue
  have e : lmap (-x) (-b, b) (-1, 1) = -lmap x (-b, b) (-1, 1) := by
    unfold lmap
    have : (b - -b) ≠ 0 := by intro h; apply hb; linarith
    field_simp
    ring
  dsimp only
  rw [e]
  cases clip
  · rfl
  · exact Vehicle.npClip_odd _ zero_le_one

private theorem normalizeRow_m (fs : List String) (clip : Bool) (rs : Dict String (ℝ × ℝ)) (hc : CentredRanges rs) (row : List ℝ) :
    Kinematics.normalizeRow fs clip rs (mirrorRow fs row) = mirrorRow fs (Kinematics.normalizeRow fs clip rs row) := by
  unfold Kinematics.normalizeRow
  induction rs generalizing row with
  | nil => rfl
  | cons fr rs ih =>
    rw [List.foldl_cons, List.foldl_cons, ← ih (fun f a b h => hc f a b (.tail _ h))]
    congr 1
    obtain ⟨f, a, b⟩ := fr
    have h := hc f a b (.head _)
    clear ih hc
    induction fs generalizing row with
    | nil => rfl
    | cons g fs ih =>
      cases row with
      | nil => rfl
      | cons x row =>
        simp only [mirrorRow, List.zipWith_cons_cons, List.zip_cons_cons, List.map_cons] at ih ⊢
        rw [ih row]
        congr 1
        by_cases hg : g = f
        · rw [if_pos hg, if_pos hg]
          unfold mirrorFeature
          rw [hg]
          by_cases hs : sideways f = true
          · rw [if_pos hs, if_pos hs, (h hs).1]
            exact normalize_m clip (h hs).2 x
          · rw [if_neg hs, if_neg hs]
        · rw [if_neg hg, if_neg hg]

private theorem ranges_m (G : Globals) (g : Graph) (ego : Vehicle) (cfg : KinematicsConfig) :
    Kinematics.ranges G g.mirror ego.mirror cfg = Kinematics.ranges G g ego cfg := by
  unfold Kinematics.ranges
  simp only [Road.allSideLanes_m]
  rfl

private theorem shuffle_map {α β : Type} (f : α → β) (rng : Rng) (l : List α) : rng.shuffle (l.map f) = ((rng.shuffle l).1.map f, (rng.shuffle l).2) := by
  induction l with
  | nil => rfl
  | cons a l ih =>
    simp only [List.map_cons, Rng.shuffle, ih, List.length_map, List.map_append, List.map_take, List.map_drop]

/-- **C122.** The kinematics observation with any features, absolute or relative, shuffled or not, normalised or not, of the mirrored world: the same
rows in the same order, with the sideways features negated; the same state of the observer and of the generator; the same exceptions. -/
theorem mirrored_observation (G : Globals) (r : Road) (ego : Vehicle) (cfg : KinematicsConfig) (hv : HasImage ego.lane ego.pos)
    (hr : ∀ w ∈ r.vehicles, HasImage ego.lane w.pos)
    (hc : cfg.normalize = true → ∀ rs, Kinematics.ranges G r.network ego cfg = .ok rs → CentredRanges rs) :
    Kinematics.observe G r.mirror ego.mirror cfg =
      (Kinematics.observe G r ego cfg).map fun p => (p.1.map (mirrorRow cfg.features), p.2.1, p.2.2) := by
  have h0 : ∀ (r : Road) (ego : Vehicle), Kinematics.observe G r ego cfg =
      ((ego.toDict r.network none true).bind (selectFeatures cfg.features)).bind fun first => do
        let others ← Kinematics.traffic r ego cfg
        let (rows, cfg) ← Kinematics.normalizeRows G r.network ego cfg (first :: others)
        let p := Kinematics.reorder cfg r.rng (Kinematics.fill cfg rows)
        return (p.1, cfg, p.2) := by
    intro r ego
    unfold Kinematics.observe
    cases ego.toDict r.network none true <;> rfl
  rw [h0, h0]
  have h1 := toDict_select_m cfg.features r.network ego none true
  rw [Option.map_none] at h1
  rw [Road.network_m, h1]
  cases (ego.toDict r.network none true).bind (selectFeatures cfg.features) with
  | error x => rfl
  | ok first =>
    simp only [Except.map, Except.bind, bind, traffic_m r ego cfg hv hr]
    cases Kinematics.traffic r ego cfg with
    | error x => rfl
    | ok others =>
      dsimp only
      have hrows : ∀ (cfg' : KinematicsConfig) (rows : List (List ℝ)), cfg'.features = cfg.features →
          Kinematics.reorder cfg' r.rng (Kinematics.fill cfg' (rows.map (mirrorRow cfg.features))) =
          ((Kinematics.reorder cfg' r.rng (Kinematics.fill cfg' rows)).1.map (mirrorRow cfg.features), (Kinematics.reorder cfg' r.rng (Kinematics.fill cfg' rows)).2) := by
        intro cfg' rows hf
        have hfill : Kinematics.fill cfg' (rows.map (mirrorRow cfg.features)) = (Kinematics.fill cfg' rows).map (mirrorRow cfg.features) := by
          unfold Kinematics.fill
          rw [List.map_append, List.length_map, List.map_replicate, hf]
          congr 2
          unfold mirrorRow
          generalize cfg.features = fs
          induction fs with
          | nil => rfl
          | cons f fs ih =>
            rw [List.length_cons, List.replicate_succ, List.zipWith_cons_cons, ← ih]
            congr 1
            unfold mirrorFeature
            by_cases hs : sideways f = true
            · rw [if_pos hs, neg_zero]
            · rw [if_neg hs]
        rw [hfill]
        unfold Kinematics.reorder
        by_cases hs : cfg'.shuffled = true
        · rw [if_pos hs, if_pos hs]
          cases Kinematics.fill cfg' rows with
          | nil => rfl
          | cons row rest => simp only [List.map_cons, shuffle_map]
        · rw [if_neg hs, if_neg hs]
      unfold Kinematics.normalizeRows
      rw [ranges_m]
      by_cases hn : cfg.normalize = true
      · rw [if_pos hn, if_pos hn]
        cases hrg : Kinematics.ranges G r.network ego cfg with
        | error x => rfl
        | ok rs =>
          simp only [bind, Except.bind, pure, Except.pure, Road.rng_m]
          have e : (mirrorRow cfg.features first :: others.map (mirrorRow cfg.features)).map (Kinematics.normalizeRow cfg.features cfg.clip rs) =
              ((first :: others).map (Kinematics.normalizeRow cfg.features cfg.clip rs)).map (mirrorRow cfg.features) := by
            rw [← List.map_cons (f := mirrorRow cfg.features), List.map_map, List.map_map]
            apply List.map_congr_left
            intro row _
            exact normalizeRow_m _ _ _ (hc hn rs hrg) row
          rw [e, hrows { cfg with featuresRange := some rs } _ rfl]
      · rw [if_neg hn, if_neg hn]
        simp only [pure, Except.pure, Road.rng_m]
        rw [← List.map_cons (f := mirrorRow cfg.features), hrows _ _ rfl]

/-- **C122.** The default ranges are centred: the condition of `mirrored_observation` is met without `features_range`, on a road that has lanes. -/
theorem mirrored_default_ranges (G : Globals) (g : Graph) (ego : Vehicle) (cfg : KinematicsConfig) (hG : G.speedMax ≠ 0)
    (hcfg : cfg.featuresRange = none) (hn : g.allSideLanes ego.laneIndex ≠ .ok []) (rs : Dict String (ℝ × ℝ))
    (h : Kinematics.ranges G g ego cfg = .ok rs) : CentredRanges rs := by
  unfold Kinematics.ranges at h
  rw [hcfg] at h
  obtain ⟨lanes, h1, h⟩ := bind_ok h
  cases h
  have hl : (lanes.length : ℝ) ≠ 0 := by
    intro h0
    apply hn
    have h2 : lanes = [] := List.length_eq_zero_iff.1 (by exact_mod_cast h0)
    rw [h1, h2]
  intro f a b hm hs
  simp only [Kinematics.defaultRange, List.mem_cons, Prod.mk.injEq, List.not_mem_nil, or_false] at hm
  rcases hm with ⟨rfl, rfl, rfl⟩ | ⟨rfl, rfl, rfl⟩ | ⟨rfl, rfl, rfl⟩ | ⟨rfl, rfl, rfl⟩
  · simp [sideways] at hs
  · exact ⟨by ring, by positivity⟩
  · simp [sideways] at hs
  · exact ⟨by ring, by positivity⟩

private theorem selectObject_m (fs : List String) (o : RoadObject) : selectFeatures fs o.mirror.toDict = (selectFeatures fs o.toDict).map (mirrorRow fs) := by
  rw [← select_m]
  congr 1
  simp [RoadObject.toDict, mirrorDict, mirrorFeature, sideways, RoadObject.mirror, Vec2.mirror]

private theorem scaled_m (fs : List String) (row scales : List ℝ) :
    ((mirrorRow fs row).zip scales).map (fun xs => xs.1 / xs.2) = mirrorRow fs ((row.zip scales).map fun xs => xs.1 / xs.2) := by
  unfold mirrorRow
  induction fs generalizing row scales with
  | nil => simp
  | cons f fs ih =>
    cases row with
    | nil => rfl
    | cons x row =>
      cases scales with
      | nil => rfl
      | cons k scales =>
        simp only [List.zipWith_cons_cons, List.zip_cons_cons, List.map_cons, ih]
        congr 1
        unfold mirrorFeature
        by_cases hs : sideways f = true
        · rw [if_pos hs, if_pos hs, neg_div]
        · rw [if_neg hs, if_neg hs]

/-- **C122.** The goal observation of the mirrored world: observation, achieved and desired goal with the sideways features negated. -/
theorem mirrored_goal (g : Graph) (fs : List String) (scales : List ℝ) (v : Vehicle) (o : RoadObject) :
    goalObservation g.mirror fs scales v.mirror o.mirror =
      (goalObservation g fs scales v o).map fun p => (mirrorRow fs p.1, mirrorRow fs p.2.1, mirrorRow fs p.2.2) := by
  have h0 : ∀ (g : Graph) (v : Vehicle) (o : RoadObject), goalObservation g fs scales v o =
      ((v.toDict g none true).bind (selectFeatures fs)).bind fun obs => do
        let target ← selectFeatures fs o.toDict
        if obs.length ≠ scales.length then .error .valueError
        else
          let obs := (obs.zip scales).map fun xs => xs.1 / xs.2
          return (obs, obs, (target.zip scales).map fun xs => xs.1 / xs.2) := by
    intro g v o
    unfold goalObservation
    cases v.toDict g none true <;> rfl
  rw [h0, h0]
  have h1 := toDict_select_m fs g v none true
  rw [Option.map_none] at h1
  rw [h1]
  cases hrow : (v.toDict g none true).bind (selectFeatures fs) with
  | error x => rfl
  | ok row =>
    have hlen : row.length = fs.length := by
      obtain ⟨d, _, hd⟩ := bind_ok hrow
      exact selectFeatures_length hd
    simp only [Except.map, Except.bind, bind, selectObject_m]
    cases selectFeatures fs o.toDict with
    | error x => rfl
    | ok target =>
      dsimp only
      have hl : (mirrorRow fs row).length = row.length := by
        unfold mirrorRow
        rw [List.length_zipWith, hlen, min_self]
      rw [hl]
      by_cases hs : row.length ≠ scales.length
      · rw [if_pos hs, if_pos hs]
      · rw [if_neg hs, if_neg hs]
        simp only [pure, Except.pure, scaled_m]

/-- Non-vacuity of C122: the sample scene is observed with the default options, normalised by the default ranges, and its mirror image shows the
mirrored rows, and the same times to collision. -/
example : ∃ obs cfg' rng', Kinematics.observe {} sampleEnv.road (Sample.car 0 .mdp 10 0 20) {} = .ok (obs, cfg', rng') ∧ obs.length = 5 ∧
    Kinematics.observe {} sampleEnv.road.mirror (Sample.car 0 .mdp 10 0 20).mirror {} =
      .ok (obs.map (mirrorRow ["presence", "x", "y", "vx", "vy"]), cfg', rng') ∧
    ttcObserve {} sampleEnv.road.mirror ⟨"0", "1", 0⟩ (Sample.car 0 .mdp 10 0 20).mirror 10 1 =
      ttcObserve {} sampleEnv.road ⟨"0", "1", 0⟩ (Sample.car 0 .mdp 10 0 20) 10 1 := by
  have hh : Healthy sampleEnv.road := sample_healthy true
  have hi : ∀ p, HasImage (Sample.car 0 .mdp 10 0 20).lane p := fun p he => by
    have := congrArg Vec2.x he
    norm_num at this
  have hego : Sample.car 0 .mdp 10 0 20 ∈ sampleEnv.road.vehicles := .head _
  have hob : Observable sampleEnv.road := ⟨hh.wf, fun v hv => ⟨(hh.attached v hv).1, by
    simp only [sampleEnv, List.mem_cons, List.not_mem_nil, or_false] at hv
    rcases hv with rfl | rfl <;> exact fun s hs => by cases hs⟩⟩
  obtain ⟨⟨obs, cfg', rng'⟩, h⟩ := kinematics_never_raises {} _ hob _ hego {} ⟨by simp [featureNames], by simp⟩
  have hl : Graph.allSideLanes sampleEnv.road.network (Sample.car 0 .mdp 10 0 20).laneIndex ≠ .ok [] := by
    intro h0
    simp [sampleEnv, Sample.net, Sample.car, Graph.allSideLanes, Graph.lanesOf, Dict.getItem, Dict.get?, bind, Except.bind, pure, Except.pure] at h0
  have hm := mirrored_observation {} sampleEnv.road _ {} (hi _) (fun w _ => hi _) fun _ rs hrs =>
    mirrored_default_ranges {} _ _ {} (by norm_num) rfl hl rs hrs
  rw [h] at hm
  exact ⟨obs, cfg', rng', h, (kinematics_rows {} _ _ {} cfg' ⟨by simp [featureNames], by simp⟩ 5 rfl (by norm_num) obs rng' h).1, hm,
    mirrored_ttc {} _ _ _ (hi _) (fun w _ => hi _) 10 1⟩

end Props
end HighwayEnv
