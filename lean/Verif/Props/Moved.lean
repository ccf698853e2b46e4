import Verif.Lemmas.Moved
import Verif.Lemmas.Connected
import Verif.Props.Translate
import Verif.Model.Envs.Highway
import Verif.Model.Envs.TwoWay
import Verif.Model.Envs.Roundabout
import Verif.Model.Envs.Merge
import Verif.Model.Envs.Parking
import Verif.Props.Highway
import Verif.Props.Full

/-!
# C120 — episodes and observations do not depend on where the world is
-/

noncomputable section
open Classical
namespace HighwayEnv.Props
open HighwayEnv Spec

/-- **C120.** A class that reads no absolute position is insensitive to every displacement. -/
theorem positionFree_at {cls : EnvClass} (hc : PositionFree cls) (t : Vec2) : PositionFreeAt t cls where
  terminal := hc.terminal t
  reward := hc.reward t
  cost := hc.cost t
  after := hc.after t

/-- **C120.** One decision in the displaced world: the same reward, termination flag, speed, crash flag and cost, or the same exception, and the
resulting state displaced. -/
theorem moved_decision (t : Vec2) (G : Globals) (c : SimConfig) (cls : EnvClass) (hc : PositionFreeAt t cls) (e : Env) (a : Option AgentAction) :
    (e.translate t).step G c cls a = (e.step G c cls a).map fun p => (p.1.translate t, p.2) :=
  Env.step_tr t hc G c e a

/-- **C120.** A whole episode in the displaced world: the same actions give the same list of results. -/
theorem moved_episode (t : Vec2) (G : Globals) (c : SimConfig) (cls : EnvClass) (hc : PositionFreeAt t cls) (e e' : Env) (as : List AgentAction)
    (rs : List StepResult) (h : Episode G c cls e as rs e') : Episode G c cls (e.translate t) as rs (e'.translate t) := by
  induction h with
  | start => exact .start
  | step _ hs ih => exact .step ih (by rw [moved_decision t G c cls hc, hs]; rfl)

/-- **C120.** The highway environment reads no absolute position. -/
theorem highway_positionFree (cfg : HighwayConfig) : PositionFree (Highway.cls cfg) where
  terminal t e := by
    show Highway.terminal cfg _ = Highway.terminal cfg e
    unfold Highway.terminal
    rw [Env.vehicle_tr]
    cases e.vehicle with
    | error x => rfl
    | ok v => simp only [Except.map, bind, Except.bind, Vehicle.onRoad_tr]; rfl
  reward t e a := by
    show Highway.reward cfg _ = Highway.reward cfg e
    unfold Highway.reward
    rw [Env.vehicle_tr]
    cases e.vehicle with
    | error x => rfl
    | ok v => simp only [Except.map, bind, Except.bind, Vehicle.onRoad_tr, Env.road_tr, Road.network_tr, Graph.allSideLanes_tr]; rfl
  cost t e := by
    show Highway.cost _ = Highway.cost e
    unfold Highway.cost
    rw [Env.vehicle_tr]
    cases e.vehicle <;> rfl
  after t e := rfl

/-- **C120.** Nor does the two-way environment. -/
theorem twoway_positionFree (G : Globals) : PositionFree (TwoWay.cls G) where
  terminal t e := by
    show TwoWay.terminal _ = TwoWay.terminal e
    unfold TwoWay.terminal
    rw [Env.vehicle_tr]
    cases e.vehicle <;> rfl
  reward t e a := by
    show TwoWay.reward G _ = TwoWay.reward G e
    unfold TwoWay.reward
    rw [Env.vehicle_tr]
    cases e.vehicle with
    | error x => rfl
    | ok v => simp only [Except.map, bind, Except.bind, Env.road_tr, Road.network_tr, Graph.allSideLanes_tr]; rfl
  cost t e := by
    show TwoWay.cost _ = TwoWay.cost e
    unfold TwoWay.cost
    rw [Env.vehicle_tr]
    cases e.vehicle <;> rfl
  after t e := rfl

/-- **C120.** Nor does the roundabout environment. -/
theorem roundabout_positionFree (G : Globals) (cfg : RoundaboutConfig) : PositionFree (Roundabout.cls G cfg) where
  terminal t e := by
    show Roundabout.terminal cfg _ = Roundabout.terminal cfg e
    unfold Roundabout.terminal
    rw [Env.vehicle_tr]
    cases e.vehicle <;> rfl
  reward t e a := by
    show Roundabout.reward G _ a = Roundabout.reward G e a
    unfold Roundabout.reward
    rw [Env.vehicle_tr]
    cases Roundabout.laneChange a with
    | error x => rfl
    | ok b => cases e.vehicle <;> rfl
  cost t e := rfl
  after t e := rfl

/-- **C120, counter-example.** The merge environment does read an absolute position: it ends when the ego vehicle is beyond `x = 370`, so the
same scene displaced by 400 m has another termination flag. -/
theorem merge_not_positionFree (G : Globals) : ¬ PositionFree (Merge.cls G) := by
  intro h
  have h1 : (Merge.cls G).terminal (sampleEnv.translate ⟨400, 0⟩) = .ok true := by
    show Merge.terminal _ = _
    unfold Merge.terminal
    rw [Env.vehicle_tr]
    have hv : sampleEnv.vehicle = .ok (Sample.car 0 .mdp 10 0 20) := rfl
    rw [hv]
    simp only [Except.map, bind, Except.bind, Vehicle.pos_tr]
    simp [Sample.car, pure, Except.pure]
    norm_num
  have h2 : (Merge.cls G).terminal sampleEnv = .ok false := by
    show Merge.terminal _ = _
    unfold Merge.terminal
    have hv : sampleEnv.vehicle = .ok (Sample.car 0 .mdp 10 0 20) := rfl
    rw [hv]
    simp only [bind, Except.bind]
    simp [Sample.car, pure, Except.pure]
    norm_num
  have h3 := h.terminal ⟨400, 0⟩ sampleEnv
  rw [h1, h2] at h3
  cases h3

end HighwayEnv.Props

namespace HighwayEnv.Props
open HighwayEnv Spec

theorem selectFeatures_shift (t : Vec2) (g : Graph) (v : Vehicle) (b : Bool) (fs : List String) :
    ((v.translate t).absDict (g.translate t) b).bind (selectFeatures fs) =
      ((v.absDict g b).bind (selectFeatures fs)).map fun row => (fs.zip row).map fun fx => shiftFeature t fx.1 fx.2 := by
  have key : ∀ f, ((v.translate t).absDict (g.translate t) b).bind (fun d => Dict.getItem d f) =
      ((v.absDict g b).bind fun d => Dict.getItem d f).map (shiftFeature t f) := fun f => Vehicle.absDict_tr t g v b f
  have herr : ∀ x, v.absDict g b = .error x → (v.translate t).absDict (g.translate t) b = .error x := by
    intro x hx
    unfold Vehicle.absDict at hx ⊢
    rw [Vehicle.destinationDirection_tr]
    cases hd : v.destinationDirection g with
    | error y => rw [hd] at hx; cases hx; rfl
    | ok d => rw [hd] at hx; cases hx
  have hok : ∀ d, v.absDict g b = .ok d → ∃ d', (v.translate t).absDict (g.translate t) b = .ok d' := by
    intro d hx
    unfold Vehicle.absDict at hx ⊢
    rw [Vehicle.destinationDirection_tr]
    cases hd : v.destinationDirection g with
    | error y => rw [hd] at hx; cases hx
    | ok d => exact ⟨_, rfl⟩
  cases h : v.absDict g b with
  | error x => rw [herr x h]; rfl
  | ok d =>
    obtain ⟨d', h'⟩ := hok d h
    rw [h, h'] at key
    rw [h']
    simp only [Except.bind] at key ⊢
    unfold selectFeatures
    induction fs with
    | nil => rfl
    | cons f fs ih =>
      rw [List.mapM_cons, List.mapM_cons, ih, key]
      cases Dict.getItem d f with
      | error x => rfl
      | ok x =>
        simp only [Except.map, bind, Except.bind]
        cases List.mapM (fun f => Dict.getItem d f) fs <;> rfl

/-- **C120.** The relative rows of the kinematics observation, i.e. all rows but the first when `absolute` is off, are the same in the displaced
world, and so is the choice and order of the vehicles they show. -/
theorem moved_traffic (t : Vec2) (r : Road) (ego : Vehicle) (cfg : KinematicsConfig) (h : cfg.absolute = false) :
    Kinematics.traffic (r.translate t) (ego.translate t) cfg = Kinematics.traffic r ego cfg := by
  unfold Kinematics.traffic
  simp only [h, Road.closeVehiclesTo_tr, Bool.false_eq_true, if_false, Road.network_tr]
  have hs : ∀ (l : List Vehicle) (k : Int), sliceFrom (l.map (Vehicle.translate t)) k = (sliceFrom l k).map (Vehicle.translate t) := by
    intro l k
    unfold sliceFrom
    rw [apply_ite (List.map (Vehicle.translate t))]
    simp only [List.length_map, List.map_drop]
  rw [hs]
  generalize sliceFrom _ _ = l
  induction l with
  | nil => rfl
  | cons v l ih => simp only [List.map_cons, List.mapM_cons, ih, Vehicle.toDict_rel_tr]

/-- Two rows that agree in column `i` still agree there after normalisation. -/
theorem normalizeRow_column (fs : List String) (clip : Bool) (rs : Dict String (ℝ × ℝ)) (row row' : List ℝ) (i : ℕ) (h : row[i]? = row'[i]?) :
    (Kinematics.normalizeRow fs clip rs row)[i]? = (Kinematics.normalizeRow fs clip rs row')[i]? := by
  unfold Kinematics.normalizeRow
  induction rs generalizing row row' with
  | nil => exact h
  | cons fr rs ih =>
    apply ih
    simp only [List.getElem?_map, List.getElem?_zip_eq_some, List.zip, List.getElem?_zipWith, h]

theorem ranges_tr (t : Vec2) (G : Globals) (g : Graph) (ego : Vehicle) (cfg : KinematicsConfig) :
    Kinematics.ranges G (g.translate t) (ego.translate t) cfg = Kinematics.ranges G g ego cfg := by
  unfold Kinematics.ranges
  simp only [Graph.allSideLanes_tr, Vehicle.laneIndex_tr]

theorem reorder_fill (cfg : KinematicsConfig) (rng : Rng) (a a' : List ℝ) (others : List (List ℝ)) :
    ∃ rest rng', Kinematics.reorder cfg rng (Kinematics.fill cfg (a :: others)) = (a :: rest, rng') ∧
      Kinematics.reorder cfg rng (Kinematics.fill cfg (a' :: others)) = (a' :: rest, rng') := by
  unfold Kinematics.reorder Kinematics.fill
  by_cases h : cfg.shuffled = true
  · rw [if_pos h, if_pos h]
    exact ⟨_, _, rfl, rfl⟩
  · rw [if_neg h, if_neg h]
    exact ⟨_, _, rfl, rfl⟩

theorem observe_unfold (G : Globals) (r : Road) (ego : Vehicle) (cfg : KinematicsConfig) :
    Kinematics.observe G r ego cfg = ((ego.absDict r.network true).bind (selectFeatures cfg.features)).bind fun first => do
      let others ← Kinematics.traffic r ego cfg
      let (rows, cfg) ← Kinematics.normalizeRows G r.network ego cfg (first :: others)
      let p := Kinematics.reorder cfg r.rng (Kinematics.fill cfg rows)
      return (p.1, cfg, p.2) := by
  unfold Kinematics.observe Vehicle.toDict
  cases ego.absDict r.network true <;> rfl

/-- **C120.** The kinematics observation with `absolute` off, in the displaced world: the same number of rows, all rows but the first identical,
the first identical in every column but `x` and `y` — these two, when numbers are not normalised, are displaced — and the same observer state and
random generator afterwards. -/
theorem moved_observation (t : Vec2) (G : Globals) (r : Road) (ego : Vehicle) (cfg cfg' : KinematicsConfig) (rows : List (List ℝ)) (rng : Rng)
    (h : cfg.absolute = false) (ho : Kinematics.observe G r ego cfg = .ok (rows, cfg', rng)) :
    ∃ row first others, rows = row :: others ∧
      Kinematics.observe G (r.translate t) (ego.translate t) cfg = .ok (first :: others, cfg', rng) ∧
      (∀ (i : ℕ) (f : String), cfg.features[i]? = some f → f ≠ "x" → f ≠ "y" → first[i]? = row[i]?) ∧
      (cfg.normalize = false → ∀ (i : ℕ) (f : String), cfg.features[i]? = some f → first[i]? = row[i]?.map (shiftFeature t f)) := by
  rw [observe_unfold] at ho ⊢
  rw [Road.network_tr, selectFeatures_shift]
  cases hf : (ego.absDict r.network true).bind (selectFeatures cfg.features) with
  | error x => rw [hf] at ho; cases ho
  | ok row0 =>
    rw [hf] at ho
    have hall : ∀ (i : ℕ) (f : String), cfg.features[i]? = some f →
        ((cfg.features.zip row0).map fun fx => shiftFeature t fx.1 fx.2)[i]? = row0[i]?.map (shiftFeature t f) := by
      intro i f hi
      rw [List.getElem?_map, List.zip, List.getElem?_zipWith, hi]
      cases row0[i]? <;> rfl
    have hcol : ∀ (i : ℕ) (f : String), cfg.features[i]? = some f → f ≠ "x" → f ≠ "y" →
        ((cfg.features.zip row0).map fun fx => shiftFeature t fx.1 fx.2)[i]? = row0[i]? := by
      intro i f hi hx hy
      rw [hall i f hi]
      cases row0[i]? with
      | none => rfl
      | some x => simp [shiftFeature, hx, hy]
    simp only [Except.map, Except.bind, bind, moved_traffic t r ego cfg h] at ho ⊢
    cases ht : Kinematics.traffic r ego cfg with
    | error x => rw [ht] at ho; cases ho
    | ok others =>
      rw [ht] at ho
      dsimp only at ho ⊢
      unfold Kinematics.normalizeRows at ho ⊢
      rw [ranges_tr]
      by_cases hn : cfg.normalize = true
      · rw [if_pos hn] at ho ⊢
        cases hr : Kinematics.ranges G r.network ego cfg with
        | error x => rw [hr] at ho; cases ho
        | ok rs =>
          rw [hr] at ho
          simp only [bind, Except.bind, pure, Except.pure, List.map_cons, Road.rng_tr] at ho ⊢
          obtain ⟨rest, rng', e1, e2⟩ := reorder_fill { cfg with featuresRange := some rs } r.rng
            (Kinematics.normalizeRow cfg.features cfg.clip rs row0)
            (Kinematics.normalizeRow cfg.features cfg.clip rs ((cfg.features.zip row0).map fun fx => shiftFeature t fx.1 fx.2))
            (others.map (Kinematics.normalizeRow cfg.features cfg.clip rs))
          rw [e1] at ho
          rw [e2]
          cases ho
          refine ⟨_, _, _, rfl, rfl, fun i f hi hx hy => ?_, fun hf => absurd hn (by rw [hf]; simp)⟩
          exact normalizeRow_column _ _ _ _ _ _ (hcol i f hi hx hy)
      · rw [if_neg hn] at ho ⊢
        simp only [pure, Except.pure, Road.rng_tr] at ho ⊢
        obtain ⟨rest, rng', e1, e2⟩ := reorder_fill cfg r.rng row0 ((cfg.features.zip row0).map fun fx => shiftFeature t fx.1 fx.2) others
        rw [e1] at ho
        rw [e2]
        cases ho
        exact ⟨_, _, _, rfl, rfl, hcol, fun _ => hall⟩

/-- **C120.** The kinematics observation with `absolute` off raises the same exceptions in the displaced world. -/
theorem moved_observation_raises (t : Vec2) (G : Globals) (r : Road) (ego : Vehicle) (cfg : KinematicsConfig) (x : PyErr) (h : cfg.absolute = false)
    (ho : Kinematics.observe G r ego cfg = .error x) : Kinematics.observe G (r.translate t) (ego.translate t) cfg = .error x := by
  rw [observe_unfold] at ho ⊢
  rw [Road.network_tr, selectFeatures_shift]
  cases hf : (ego.absDict r.network true).bind (selectFeatures cfg.features) with
  | error y => rw [hf] at ho; cases ho; rfl
  | ok row0 =>
    rw [hf] at ho
    simp only [Except.map, Except.bind, bind, moved_traffic t r ego cfg h] at ho ⊢
    cases ht : Kinematics.traffic r ego cfg with
    | error y => rw [ht] at ho; cases ho; rfl
    | ok others =>
      rw [ht] at ho
      dsimp only at ho ⊢
      unfold Kinematics.normalizeRows at ho ⊢
      rw [ranges_tr]
      by_cases hn : cfg.normalize = true
      · rw [if_pos hn] at ho ⊢
        cases hr : Kinematics.ranges G r.network ego cfg with
        | error y => rw [hr] at ho; cases ho; rfl
        | ok rs => rw [hr] at ho; cases ho
      · rw [if_neg hn] at ho; cases ho

/-- **C120.** The occupancy grid around an observer is the same in the displaced world, and so is the observer afterwards. -/
theorem moved_occupancy (t : Vec2) (G : Globals) (o : Occupancy) (r : Road) (v : Vehicle) :
    o.observe G (some (r.translate t)) (some (v.translate t)) = o.observe G (some r) (some v) := by
  unfold Occupancy.observe
  dsimp only
  have h : ((r.translate t).vehicles.mapM fun w => w.toDict (r.translate t).network (some (v.translate t))) =
      r.vehicles.mapM fun w => w.toDict r.network (some v) := by
    rw [Road.vehicles_tr, Road.network_tr]
    generalize r.vehicles = l
    induction l with
    | nil => rfl
    | cons w l ih => simp only [List.map_cons, List.mapM_cons, ih, Vehicle.toDict_rel_tr]
  rw [h]

theorem isConnectedRoad_tr (t : Vec2) (g : Graph) (a b : RouteStep) (route : Option (List RouteStep)) (sameLane : Bool) (depth : ℕ) :
    (g.translate t).isConnectedRoad a b route sameLane depth = g.isConnectedRoad a b route sameLane depth := by
  have hs : ∀ n, (g.translate t).succs n = g.succs n := by
    intro n
    unfold Graph.succs
    rw [Graph.get?_tr]
    cases Dict.get? g n with
    | none => rfl
    | some d => exact Dict.keys_map _ d
  exact Graph.isConnectedRoad_congr g _ hs a b route sameLane depth

theorem timeToCollision_tr (t : Vec2) (v w : Vehicle) (s m : ℝ) :
    timeToCollision (v.translate t) (w.translate t) s m = timeToCollision v w s m := by
  unfold timeToCollision
  simp only [Vehicle.pos_tr, Vehicle.laneDistanceTo_tr, Vehicle.speed_tr, Vehicle.direction_tr]

theorem ttcOther_tr (t : Vec2) (g : Graph) (v : Vehicle) (q : ℝ) (h : ℕ) (s : ℝ) (grid : Grid3) (w : Vehicle) :
    ttcOther (g.translate t) (v.translate t) q h s grid (w.translate t) = ttcOther g v q h s grid w := by
  have hp : ttcPoint (g.translate t) (v.translate t) (w.translate t) q h s = ttcPoint g v w q h s := by
    funext grid mc
    unfold ttcPoint expectedLanes
    simp only [timeToCollision_tr, isConnectedRoad_tr, Graph.allSideLanes_tr, Vehicle.laneIndex_tr, Vehicle.route_tr]
  unfold ttcOther
  rw [hp]
  by_cases hu : w.uid = v.uid ∨ s = w.speed
  · rw [if_pos hu]; exact if_pos hu
  · rw [if_neg hu]; exact if_neg hu

/-- **C120.** The time-to-collision grid is the same in the displaced world. -/
theorem moved_ttc_grid (t : Vec2) (G : Globals) (r : Road) (i : LaneIndex) (v : Vehicle) (q horizon : ℝ) :
    computeTtcGrid G (r.translate t) i (v.translate t) q horizon = computeTtcGrid G r i v q horizon := by
  have hl : ∀ (h : ℕ) (s : ℝ) (l : List Vehicle) (grid : Grid3),
      (l.map (Vehicle.translate t)).foldlM (ttcOther (r.network.translate t) (v.translate t) q h s) grid = l.foldlM (ttcOther r.network v q h s) grid := by
    intro h s l
    induction l with
    | nil => intro _; rfl
    | cons w l ih =>
      intro grid
      simp only [List.map_cons, List.foldlM_cons, ttcOther_tr]
      exact congrArg _ (funext fun g => ih g)
  unfold computeTtcGrid
  simp only [Road.network_tr, Road.vehicles_tr, Graph.allSideLanes_tr, Vehicle.kind_tr, hl]

/-- **C120.** The time-to-collision observation is the same in the displaced world. -/
theorem moved_ttc (t : Vec2) (G : Globals) (r : Road) (i : LaneIndex) (v : Vehicle) (horizon pf : ℝ) :
    ttcObserve G (r.translate t) i (v.translate t) horizon pf = ttcObserve G r i v horizon pf := by
  unfold ttcObserve
  simp only [moved_ttc_grid, Vehicle.laneIndex_tr, Vehicle.speedIndex_tr]

/-- **C120.** And so is the finite Markov decision process: its states, transitions, rewards and terminal states. -/
theorem moved_mdp (t : Vec2) (G : Globals) (r : Road) (v : Vehicle) (w : MdpWeights) (q horizon : ℝ) :
    finiteMdp G (r.translate t) (v.translate t) w q horizon = finiteMdp G r v w q horizon := by
  unfold finiteMdp
  simp only [moved_ttc_grid, Vehicle.laneIndex_tr, Vehicle.speedIndex_tr]

end HighwayEnv.Props

namespace HighwayEnv.Props
open HighwayEnv Spec

/-! ### The parking environment -/

theorem objectFeature_shift (t : Vec2) (o : RoadObject) (f : String) :
    Dict.getItem (o.translate t).toDict f = (Dict.getItem o.toDict f).map (shiftFeature t f) := by
  unfold RoadObject.toDict
  simp only [Dict.getItem, Dict.get?]
  by_cases h0 : "presence" = f
  · subst h0; rw [if_pos rfl, if_pos rfl]; simp [Except.map, shiftFeature]
  rw [if_neg h0, if_neg h0]
  by_cases h1 : "x" = f
  · subst h1; rw [if_pos rfl, if_pos rfl]; simp [Except.map, shiftFeature, RoadObject.translate]
  rw [if_neg h1, if_neg h1]
  by_cases h2 : "y" = f
  · subst h2; rw [if_pos rfl, if_pos rfl]; simp [Except.map, shiftFeature, RoadObject.translate]
  rw [if_neg h2, if_neg h2]
  have hs : shiftFeature t f = id := by
    funext x; unfold shiftFeature; rw [if_neg (Ne.symm h1), if_neg (Ne.symm h2)]; rfl
  rw [hs]
  simp only [show (o.translate t).heading = o.heading from rfl]
  generalize (if "vx" = f then _ else _ : Option ℝ) = x
  cases x <;> rfl

theorem selectObject_shift (t : Vec2) (o : RoadObject) (fs : List String) :
    selectFeatures fs (o.translate t).toDict = (selectFeatures fs o.toDict).map fun row => (fs.zip row).map fun fx => shiftFeature t fx.1 fx.2 := by
  unfold selectFeatures
  induction fs with
  | nil => rfl
  | cons f fs ih =>
    rw [List.mapM_cons, List.mapM_cons, ih, objectFeature_shift]
    cases Dict.getItem o.toDict f with
    | error x => rfl
    | ok x =>
      simp only [Except.map, bind, Except.bind]
      cases List.mapM (fun f => Dict.getItem o.toDict f) fs <;> rfl

theorem selectFeatures_length {fs : List String} {d : Dict String ℝ} {row : List ℝ} (h : selectFeatures fs d = .ok row) : row.length = fs.length := by
  unfold selectFeatures at h
  induction fs generalizing row with
  | nil => cases h; rfl
  | cons f fs ih =>
    rw [List.mapM_cons] at h
    cases hf : Dict.getItem d f with
    | error x => rw [hf] at h; cases h
    | ok x =>
      rw [hf] at h
      simp only [bind, Except.bind] at h
      cases hm : List.mapM (fun f => Dict.getItem d f) fs with
      | error x => rw [hm] at h; cases h
      | ok xs =>
        rw [hm] at h
        cases h
        simp [ih hm]

/-- Two goal observations with the same reward. -/
def SameScore (p q : List ℝ × List ℝ × List ℝ) : Prop := Parking.computeReward p.2.1 p.2.2 = Parking.computeReward q.2.1 q.2.2

/-- The same exception, or related results. -/
def Alike {α β : Type} (R : α → β → Prop) (x : Py α) (y : Py β) : Prop :=
  (∃ e, x = .error e ∧ y = .error e) ∨ ∃ a b, x = .ok a ∧ y = .ok b ∧ R a b

theorem goalObservation_tr (t : Vec2) (g : Graph) (fs : List String) (sc : List ℝ) (v : Vehicle) (o : RoadObject) :
    Alike SameScore (goalObservation (g.translate t) fs sc (v.translate t) (o.translate t)) (goalObservation g fs sc v o) := by
  have hu : ∀ (g : Graph) (v : Vehicle) (o : RoadObject), goalObservation g fs sc v o =
      ((v.absDict g true).bind (selectFeatures fs)).bind fun obs => (selectFeatures fs o.toDict).bind fun target =>
        if obs.length ≠ sc.length then .error .valueError
        else .ok ((obs.zip sc).map fun xs => xs.1 / xs.2, (obs.zip sc).map fun xs => xs.1 / xs.2, (target.zip sc).map fun xs => xs.1 / xs.2) := by
    intro g v o
    unfold goalObservation Vehicle.toDict
    cases v.absDict g true <;> rfl
  rw [hu, hu, selectFeatures_shift, selectObject_shift]
  cases h1 : (v.absDict g true).bind (selectFeatures fs) with
  | error x => exact .inl ⟨x, rfl, rfl⟩
  | ok row =>
    have hr : row.length = fs.length := by
      cases hd : v.absDict g true with
      | error x => rw [hd] at h1; cases h1
      | ok d => rw [hd] at h1; exact selectFeatures_length h1
    cases h2 : selectFeatures fs o.toDict with
    | error x => exact .inl ⟨x, rfl, rfl⟩
    | ok target =>
      have ht := selectFeatures_length h2
      simp only [Except.map, Except.bind]
      have hl : ((fs.zip row).map fun fx => shiftFeature t fx.1 fx.2).length = row.length := by simp [hr]
      rw [hl]
      by_cases hs : row.length ≠ sc.length
      · rw [if_pos hs, if_pos hs]; exact .inl ⟨_, rfl, rfl⟩
      · rw [if_neg hs, if_neg hs]
        refine .inr ⟨_, _, rfl, rfl, ?_⟩
        unfold SameScore Parking.computeReward Parking.weightedGap
        have hgap : List.zipWith (· - ·) ((((fs.zip row).map fun fx => shiftFeature t fx.1 fx.2).zip sc).map fun xs => xs.1 / xs.2)
            ((((fs.zip target).map fun fx => shiftFeature t fx.1 fx.2).zip sc).map fun xs => xs.1 / xs.2) =
            List.zipWith (· - ·) ((row.zip sc).map fun xs => xs.1 / xs.2) ((target.zip sc).map fun xs => xs.1 / xs.2) := by
          apply List.ext_getElem
          · simp [hr, ht]
          · intro i h1 h2
            simp only [List.getElem_zipWith, List.getElem_map, List.getElem_zip]
            unfold shiftFeature
            split
            · ring
            · split
              · ring
              · rfl
        simp only [hgap, List.length_map, List.length_zip, hr, ht, min_self]

theorem goal_tr (t : Vec2) (e : Env) : Parking.goal (e.translate t) = (Parking.goal e).map (RoadObject.translate t) := by
  unfold Parking.goal
  have h : ((e.translate t).road.objects.find? fun o => decide (o.uid = (e.translate t).goal)) =
      (e.road.objects.find? fun o => decide (o.uid = e.goal)).map (RoadObject.translate t) := by
    rw [Env.road_tr, Road.objects_tr, List.find?_map]
    rfl
  rw [h]
  cases e.road.objects.find? fun o => decide (o.uid = e.goal) <;> rfl

theorem observeOne_tr (t : Vec2) (cfg : ParkingConfig) (e : Env) (uid : ℕ) :
    Alike SameScore (Parking.observeOne cfg (e.translate t) uid) (Parking.observeOne cfg e uid) := by
  unfold Parking.observeOne
  rw [Env.road_tr, Road.vehicle?_tr, goal_tr]
  cases e.road.vehicle? uid with
  | none => exact .inl ⟨_, rfl, rfl⟩
  | some v =>
    cases Parking.goal e with
    | error x => exact .inl ⟨_, rfl, rfl⟩
    | ok o => exact goalObservation_tr t e.road.network cfg.features cfg.scales v o

theorem mapM_alike {α β γ : Type} (R : β → γ → Prop) (f : α → Py β) (f' : α → Py γ) (l : List α) (h : ∀ a, Alike R (f a) (f' a)) :
    Alike (List.Forall₂ R) (l.mapM f) (l.mapM f') := by
  induction l with
  | nil => exact .inr ⟨_, _, rfl, rfl, .nil⟩
  | cons a l ih =>
    rw [List.mapM_cons, List.mapM_cons]
    rcases h a with ⟨x, h1, h2⟩ | ⟨b, c, h1, h2, hr⟩
    · rw [h1, h2]; exact .inl ⟨_, rfl, rfl⟩
    · rw [h1, h2]
      rcases ih with ⟨x, h3, h4⟩ | ⟨bs, cs, h3, h4, hrs⟩
      · simp only [bind, Except.bind, h3, h4]; exact .inl ⟨_, rfl, rfl⟩
      · simp only [bind, Except.bind, h3, h4]; exact .inr ⟨_, _, rfl, rfl, .cons hr hrs⟩

theorem observations_tr (t : Vec2) (cfg : ParkingConfig) (e : Env) :
    Alike (List.Forall₂ SameScore) (Parking.observations cfg (e.translate t)) (Parking.observations cfg e) := by
  unfold Parking.observations
  rw [Env.controlled_tr]
  by_cases h : cfg.severalObservers = true
  · rw [if_pos h, if_pos h]
    exact mapM_alike _ _ _ _ (observeOne_tr t cfg e)
  · rw [if_neg h, if_neg h]
    cases e.controlled with
    | nil => exact .inr ⟨_, _, rfl, rfl, .cons rfl .nil⟩
    | cons uid us =>
      rcases observeOne_tr t cfg e uid with ⟨x, h1, h2⟩ | ⟨b, c, h1, h2, hr⟩
      · simp only [h1, h2]; exact .inl ⟨_, rfl, rfl⟩
      · simp only [h1, h2]; exact .inr ⟨_, _, rfl, rfl, .cons hr .nil⟩

theorem egos_tr (t : Vec2) (e : Env) : Parking.egos (e.translate t) = (Parking.egos e).map (List.map (Vehicle.translate t)) := by
  unfold Parking.egos
  rw [Env.controlled_tr]
  induction e.controlled with
  | nil => rfl
  | cons uid us ih =>
    rw [List.mapM_cons, List.mapM_cons, ih, Env.road_tr, Road.vehicle?_tr]
    cases e.road.vehicle? uid with
    | none => rfl
    | some v =>
      simp only [Option.map_some, bind, Except.bind]
      generalize (List.mapM (m := Py) _ us) = x
      cases x <;> rfl

/-- **C120.** The parking environment reads no absolute position either: only differences between the goal and the observed state count. -/
theorem parking_positionFree (cfg : ParkingConfig) : PositionFree (Parking.cls cfg) where
  terminal t e := by
    show Parking.terminalWith _ cfg _ = Parking.terminalWith _ cfg e
    unfold Parking.terminalWith
    rw [egos_tr]
    cases Parking.egos e with
    | error x => rfl
    | ok vs =>
      simp only [Except.map, bind, Except.bind]
      rcases observations_tr t cfg e with ⟨x, h1, h2⟩ | ⟨b, c, h1, h2, hr⟩
      · rw [h1, h2]
      · rw [h1, h2]
        have hsucc : Parking.allSuccessWith (fun a d => Parking.computeReward a d) b = Parking.allSuccessWith (fun a d => Parking.computeReward a d) c := by
          clear h1 h2
          induction hr with
          | nil => rfl
          | cons hr _ ih =>
            unfold Parking.allSuccessWith Parking.isSuccessWith
            unfold SameScore at hr
            simp only [hr, ih]
        dsimp only
        rw [hsucc, List.any_map]
        rfl
  reward t e a := by
    show Parking.rewardWith (fun a d => Parking.computeReward a d) cfg _ = Parking.rewardWith (fun a d => Parking.computeReward a d) cfg e
    unfold Parking.rewardWith
    rcases observations_tr t cfg e with ⟨x, h1, h2⟩ | ⟨b, c, h1, h2, hr⟩
    · rw [h1, h2]
    · rw [h1, h2]
      have hm : (b.mapM fun o => Parking.computeReward o.2.1 o.2.2) = c.mapM fun o => Parking.computeReward o.2.1 o.2.2 := by
        clear h1 h2
        induction hr with
        | nil => rfl
        | cons hr _ ih =>
          unfold SameScore at hr
          simp only [List.mapM_cons, hr, ih]
      simp only [bind, Except.bind, hm]
  cost t e := rfl
  after t e := rfl

/-! ### Playing with observations -/

theorem observe_relative (t : Vec2) (G : Globals) (r : Road) (ego : Vehicle) (cfg : KinematicsConfig) (h : cfg.absolute = false)
    (hx : "x" ∉ cfg.features) (hy : "y" ∉ cfg.features) :
    Kinematics.observe G (r.translate t) (ego.translate t) cfg = Kinematics.observe G r ego cfg := by
  rw [observe_unfold, observe_unfold, Road.network_tr, selectFeatures_shift]
  have hid : ((ego.absDict r.network true).bind (selectFeatures cfg.features)).map
      (fun row => (cfg.features.zip row).map fun fx => shiftFeature t fx.1 fx.2) =
      (ego.absDict r.network true).bind (selectFeatures cfg.features) := by
    cases hd : ego.absDict r.network true with
    | error x => rfl
    | ok d =>
      cases hs : selectFeatures cfg.features d with
      | error x => simp only [Except.bind, hs]; rfl
      | ok row =>
        simp only [Except.bind, hs, Except.map]
        congr 1
        apply List.ext_getElem
        · simp [selectFeatures_length hs]
        · intro i h1 h2
          have hm : cfg.features[i]'(by simp at h1; exact h1.1) ∈ cfg.features := List.getElem_mem _
          simp only [List.getElem_map, List.getElem_zip]
          unfold shiftFeature
          rw [if_neg (fun e => hx (by rw [← e]; exact hm)), if_neg (fun e => hy (by rw [← e]; exact hm))]
  rw [hid]
  simp only [moved_traffic t r ego cfg h, Kinematics.normalizeRows, ranges_tr, Road.rng_tr]

theorem watched_tr (t : Vec2) (s : Scene) (r : Road) (v : Option ℕ) :
    ObsType.watched (s.translate t) (r.translate t) v = (ObsType.watched s r v).map (Vehicle.translate t) := by
  unfold ObsType.watched
  cases v with
  | some uid => exact Road.vehicle?_tr t r uid
  | none =>
    show s.controlled.head?.bind (r.translate t).vehicle? = _
    cases s.controlled.head? with
    | none => rfl
    | some uid => exact Road.vehicle?_tr t r uid

theorem observeTtc_tr (t : Vec2) (G : Globals) (s : Scene) (h : ℝ) (v : Option ℕ) :
    ObsType.observeTtc G (s.translate t) h v = ObsType.observeTtc G s h v := by
  unfold ObsType.observeTtc
  cases hr : s.road with
  | none => simp only [Scene.translate, hr, Option.map_none]
  | some r =>
    have hr' : (s.translate t).road = some (r.translate t) := by simp [Scene.translate, hr]
    rw [hr']
    simp only [watched_tr]
    cases ObsType.watched s r none with
    | none => rfl
    | some ego =>
      cases ObsType.watched s r v with
      | none => rfl
      | some w => simp only [Option.map_some, ObsType.need, bind, Except.bind, Vehicle.laneIndex_tr, moved_ttc]; rfl

theorem observeKinematics_tr (t : Vec2) (G : Globals) (s : Scene) (cfg : KinematicsConfig) (v : Option ℕ) (h : cfg.absolute = false)
    (hx : "x" ∉ cfg.features) (hy : "y" ∉ cfg.features) :
    ObsType.observeKinematics G (s.translate t) cfg v =
      (ObsType.observeKinematics G s cfg v).map fun p => (p.1, p.2.1, p.2.2.map (Road.translate t)) := by
  unfold ObsType.observeKinematics
  cases hr : s.road with
  | none => simp only [Scene.translate, hr, Option.map_none]; rfl
  | some r =>
    have hr' : (s.translate t).road = some (r.translate t) := by simp [Scene.translate, hr]
    rw [hr']
    simp only [watched_tr]
    cases ObsType.watched s r v with
    | none => rfl
    | some w =>
      simp only [Option.map_some, ObsType.need, bind, Except.bind, observe_relative t G r w cfg h hx hy]
      cases Kinematics.observe G r w cfg <;> rfl

theorem kinematics_features {G : Globals} {s : Scene} {cfg cfg' : KinematicsConfig} {v : Option ℕ} {x : Obs} {ro : Option Road}
    (h : ObsType.observeKinematics G s cfg v = .ok (x, cfg', ro)) : cfg'.features = cfg.features ∧ cfg'.absolute = cfg.absolute := by
  unfold ObsType.observeKinematics at h
  cases hr : s.road with
  | none => rw [hr] at h; cases h; exact ⟨rfl, rfl⟩
  | some r =>
    rw [hr] at h
    obtain ⟨w, -, h⟩ := bind_ok h
    obtain ⟨⟨rows, cfg1, rng⟩, h1, h⟩ := bind_ok h
    cases h
    unfold Kinematics.observe at h1
    obtain ⟨d, -, h1⟩ := bind_ok h1
    obtain ⟨first, -, h1⟩ := bind_ok h1
    obtain ⟨others, -, h1⟩ := bind_ok h1
    obtain ⟨⟨rows', cfg3⟩, h4, h1⟩ := bind_ok h1
    cases h1
    unfold Kinematics.normalizeRows at h4
    split at h4
    · obtain ⟨rs, -, h4⟩ := bind_ok h4
      cases h4; exact ⟨rfl, rfl⟩
    · cases h4; exact ⟨rfl, rfl⟩

mutual
theorem obs_tr (t : Vec2) (G : Globals) : ∀ (o : ObsType) (s : Scene) (x : Obs) (o' : ObsType) (s' : Scene),
    Relative o → o.observe G s = .ok (x, o', s') → o.observe G (s.translate t) = .ok (x, o', s'.translate t) ∧ Relative o'
  | .ttc h v, s, x, o', s', _, ho => by
    rw [ObsType.observe] at ho ⊢
    rw [observeTtc_tr]
    obtain ⟨y, h1, ho⟩ := bind_ok ho
    cases ho
    rw [h1]
    exact ⟨rfl, .ttc _ _⟩
  | .kinematics cfg v, s, x, o', s', hq, ho => by
    cases hq with
    | kinematics _ _ habs hx hy =>
    rw [ObsType.observe] at ho ⊢
    rw [observeKinematics_tr t G s cfg v habs hx hy]
    obtain ⟨⟨y, cfg1, r1⟩, h1, ho⟩ := bind_ok ho
    cases ho
    rw [h1]
    obtain ⟨e1, e2⟩ := kinematics_features h1
    exact ⟨rfl, .kinematics _ _ (by rw [e2]; exact habs) (by rw [e1]; exact hx) (by rw [e1]; exact hy)⟩
  | .occupancy oc v, s, x, o', s', hq, ho => by cases hq
  | .goal fs sc v, s, x, o', s', hq, ho => by cases hq
  | .image w n m planes, s, x, o', s', _, ho => by
    rw [ObsType.observe] at ho ⊢
    obtain ⟨y, h1, ho⟩ := bind_ok ho
    cases ho
    have : ObsType.observeImage (s.translate t) w n m planes = ObsType.observeImage s w n m planes := rfl
    rw [this, h1]
    exact ⟨rfl, .image _ _ _ _⟩
  | .attributes names, s, x, o', s', _, ho => by
    rw [ObsType.observe] at ho ⊢
    obtain ⟨y, h1, ho⟩ := bind_ok ho
    cases ho
    have : ∀ n, ObsType.getattr (s.translate t) n = ObsType.getattr s n := fun _ => rfl
    simp only [this, h1]
    exact ⟨rfl, .attributes _⟩
  | .multi l, s, x, o', s', hq, ho => by
    cases hq with
    | multi _ hl =>
    rw [ObsType.observe] at ho ⊢
    obtain ⟨⟨os, l', s1⟩, h1, ho⟩ := bind_ok ho
    cases ho
    obtain ⟨h2, h3⟩ := obsList_tr t G l _ _ _ _ hl h1
    rw [h2]
    exact ⟨rfl, .multi _ h3⟩

theorem obsList_tr (t : Vec2) (G : Globals) : ∀ (l : List ObsType) (s : Scene) (xs : List Obs) (l' : List ObsType) (s' : Scene),
    (∀ o ∈ l, Relative o) → ObsType.observeList G l s = .ok (xs, l', s') →
    ObsType.observeList G l (s.translate t) = .ok (xs, l', s'.translate t) ∧ ∀ o ∈ l', Relative o
  | [], s, xs, l', s', _, ho => by
    rw [ObsType.observeList] at ho ⊢
    cases ho
    exact ⟨rfl, by simp⟩
  | o :: l, s, xs, l', s', hl, ho => by
    rw [ObsType.observeList] at ho ⊢
    obtain ⟨⟨y, o1, s1⟩, h1, ho⟩ := bind_ok ho
    obtain ⟨⟨ys, l1, s2⟩, h2, ho⟩ := bind_ok ho
    cases ho
    obtain ⟨a1, a2⟩ := obs_tr t G o _ _ _ _ (hl o (by simp)) h1
    obtain ⟨b1, b2⟩ := obsList_tr t G l _ _ _ _ (fun o ho => hl o (by simp [ho])) h2
    rw [a1]
    simp only [bind, Except.bind, b1]
    refine ⟨rfl, ?_⟩
    intro p hp
    rcases List.mem_cons.1 hp with rfl | hp
    · exact a2
    · exact b2 p hp
end

/-- **C120.** A decision with its observation, for observers that show no absolute position: the agent receives the same observation, reward,
termination flag, speed, crash flag and cost in the displaced world. -/
theorem moved_full_step (t : Vec2) (G : Globals) (c : SimConfig) (cls : EnvClass) (view : View) (hc : PositionFreeAt t cls) (hv : PositionFreeView view)
    (f f' : Full) (a : Option AgentAction) (x : Obs) (res : StepResult) (ho : Relative f.observer)
    (h : f.step G c cls view a = .ok (x, res, f')) : (f.translate t).step G c cls view a = .ok (x, res, f'.translate t) ∧ Relative f'.observer := by
  unfold Full.step at h ⊢
  show (if f.env.controlled = [] then _ else _) = _ ∧ _
  by_cases hn : f.env.controlled = []
  · rw [if_pos hn] at h; cases h
  rw [if_neg hn] at h ⊢
  obtain ⟨e, h1, h⟩ := bind_ok h
  obtain ⟨⟨y, f1⟩, h2, h⟩ := bind_ok h
  obtain ⟨⟨e2, res2⟩, h3, h⟩ := bind_ok h
  cases h
  have h1' := Env.simulate_tr t hc G c a { f.env with steps := f.env.steps + 1 }
  rw [h1] at h1'
  unfold Full.observe at h2
  obtain ⟨⟨y', o', s'⟩, h4, h2⟩ := bind_ok h2
  cases h2
  have hs : (e.translate t).scene view c = (e.scene view c).translate t := by
    unfold Env.scene Scene.translate
    simp only [hv.goal, hv.picture, hv.attributes]
    rfl
  obtain ⟨a1, a2⟩ := obs_tr t (view.classes G) _ _ _ _ _ ho h4
  have hobs : (e.translate t).observed (s'.translate t) = (e.observed s').translate t := by
    unfold Env.observed Scene.translate
    cases s'.road <;> rfl
  have h5 : Full.observe G c view ⟨e.translate t, f.observer⟩ = .ok (x, ⟨(e.observed s').translate t, o'⟩) := by
    unfold Full.observe
    simp only [hs, a1, bind, Except.bind, hobs]
    rfl
  have hcon : Full.conclude cls ((e.observed s').translate t) a = .ok (e2.translate t, res) := by
    have hmap : Full.conclude cls ((e.observed s').translate t) a = (Full.conclude cls (e.observed s') a).map fun p => (p.1.translate t, p.2) := by
      generalize e.observed s' = e1
      unfold Full.conclude
      simp only [hc.reward, hc.terminal, Env.vehicle_tr, Env.tryCost_tr t hc, hc.after]
      cases cls.reward e1 a with
      | error x => rfl
      | ok rw1 =>
        cases cls.terminal e1 with
        | error x => rfl
        | ok b =>
          cases e1.vehicle with
          | error x => rfl
          | ok v =>
            cases e1.tryCost cls with
            | error x => rfl
            | ok co => cases cls.after e1 <;> rfl
    rw [hmap, h3]; rfl
  refine ⟨?_, a2⟩
  have h6 : Env.simulate G c cls a (Env.mk (f.translate t).env.road (f.translate t).env.controlled (f.translate t).env.time
      ((f.translate t).env.steps + 1) (f.translate t).env.done (f.translate t).env.goal (f.translate t).env.nextUid) = .ok (e.translate t) := h1'
  rw [h6]
  show (do let (x, f) ← Full.observe G c view ⟨e.translate t, f.observer⟩; let (e, res) ← Full.conclude cls f.env a; return (x, res, (⟨e, f.observer⟩ : Full))) = _
  rw [h5]
  simp only [bind, Except.bind, hcon]
  rfl

/-- **C120.** A whole play in the displaced world: the same actions give the same observations and results, so that an agent deciding from what it
has received so far goes on deciding the same. -/
theorem moved_play (t : Vec2) (G : Globals) (c : SimConfig) (cls : EnvClass) (view : View) (hc : PositionFreeAt t cls) (hv : PositionFreeView view)
    (f f' : Full) (as : List AgentAction) (rs : List (Obs × StepResult)) (ho : Relative f.observer) (h : Play G c cls view f as rs f') :
    Play G c cls view (f.translate t) as rs (f'.translate t) ∧ Relative f'.observer := by
  induction h with
  | start => exact ⟨.start, ho⟩
  | step _ hs ih =>
    obtain ⟨a1, a2⟩ := moved_full_step t G c cls view hc hv _ _ _ _ _ ih.2 hs
    exact ⟨.step ih.1 a1, a2⟩

/-- Non-vacuity of C120: the highway environment with its default settings can be reset and driven for three decisions; the same episode with
the world moved by a kilometre gives the same three results. -/
example : ∃ e rs e', Highway.reset {} {} ⟨fun _ => 0, fun _ => 0, 0, 0⟩ = .ok e ∧ rs.length = 3 ∧
    Episode {} {} (Highway.cls {}) e [.index 3, .index 0, .index 1] rs e' ∧
    Episode {} {} (Highway.cls {}) (e.translate ⟨1000, 0⟩) [.index 3, .index 0, .index 1] rs (e'.translate ⟨1000, 0⟩) := by
  obtain ⟨e, rs, e', h1, h2, h3, _⟩ := highway_episode {} {} highway_default_ok.1 (by norm_num) (by norm_num) ⟨fun _ => 0, fun _ => 0, 0, 0⟩
    [.index 3, .index 0, .index 1] (by
      intro a ha
      simp only [List.mem_cons, List.not_mem_nil, or_false] at ha
      rcases ha with rfl | rfl | rfl <;> (show _ ∧ _; decide))
  exact ⟨e, rs, e', h1, h3, h2, moved_episode _ {} {} _ (positionFree_at (highway_positionFree {}) _) _ _ _ _ h2⟩

/-- Non-vacuity of `moved_play`: an agent watching presences and velocities changes lanes ten times in the sample environment, and receives the
same ten observations and results a kilometre away. -/
example : ∃ rs f, rs.length = 10 ∧
    Play {} {} sampleClass {} ⟨sampleEnv, .kinematics { features := ["presence", "vx", "vy"] } none⟩ (List.replicate 10 (.index 0)) rs f ∧
    Play {} {} sampleClass {} ⟨sampleEnv.translate ⟨1000, 0⟩, .kinematics { features := ["presence", "vx", "vy"] } none⟩ (List.replicate 10 (.index 0)) rs
      (f.translate ⟨1000, 0⟩) := by
  let I : Env → Prop := fun e => Observable e.road ∧ e.controlled = [0]
  have hrel : Reliable {} {} sampleClass I := {
    lasting := fun f r t s h hr => ⟨⟨by
      show WellFormed r.network
      rw [run_network hr]; exact h.1.1, by
      show ∀ v ∈ r.vehicles, Attached r.network v ∧ RouteEnd r.network v.route
      rw [run_network hr]; exact routeEnd_forever {} _ _ h.1.1 h.1.2 hr⟩, h.2⟩
    terminal := fun e h _ => (sample_reliable {}).terminal e h trivial
    reward := fun e a h _ ha => (sample_reliable {}).reward e a h trivial ha
    cost := fun e h _ => (sample_reliable {}).cost e h trivial
    after := fun e h hI => ⟨e, rfl, h, hI⟩ }
  have hrand : ∀ e e', SameButRandom e e' → I e → I e' := by
    intro e e' h hI; rw [h]; exact hI
  have hok : ∀ e, Ready {} e → I e → Seen [0] (e.scene {} {}) := by
    intro e hr hI
    refine ⟨by simp, hI.2, e.road, rfl, hI.1, ?_⟩
    rw [← hI.2]
    exact hr.manned.onRoad
  have has : ∀ a ∈ List.replicate 10 (AgentAction.index 0), InEnvSpace ({} : SimConfig).action a := by
    intro a ha
    obtain ⟨_, rfl⟩ := List.mem_replicate.1 ha
    exact ⟨le_rfl, by norm_num [AgentType.spaceSize, AgentType.actions]⟩
  have hobs : Observable sampleEnv.road := by
    refine ⟨Sample.net_wf, fun v hv => ?_⟩
    have : ∀ u k x s, Attached Sample.net (Sample.car u k x 0 s) ∧ RouteEnd Sample.net (Sample.car u k x 0 s).route := fun u k x s =>
      ⟨⟨⟨0, _, rfl, Sample.net_has0⟩, Graph.getLane_of_hasLane (k := 0) Sample.net_py rfl Sample.net_has0, ⟨0, _, rfl, Sample.net_has0⟩⟩,
        fun s hs => by cases hs⟩
    simp only [sampleEnv, List.mem_cons, List.not_mem_nil, or_false] at hv
    rcases hv with rfl | rfl <;> exact this _ _ _ _
  have hnorm : Normalised { features := ["presence", "vx", "vy"] } := ⟨⟨by simp [featureNames], by simp⟩, by simp, rfl, rfl, by simp, by simp⟩
  have hfree : PositionFree sampleClass := {
    terminal := fun t e => by
      show (do let v ← (e.translate t).vehicle; return v.crashed) = (do let v ← e.vehicle; return v.crashed)
      rw [Env.vehicle_tr]
      cases e.vehicle <;> rfl
    reward := fun t e a => by
      show (do let v ← (e.translate t).vehicle; return if v.crashed then (0 : ℝ) else 1) = (do let v ← e.vehicle; return if v.crashed then (0 : ℝ) else 1)
      rw [Env.vehicle_tr]
      cases e.vehicle <;> rfl
    cost := fun _ _ => rfl
    after := fun _ _ => rfl }
  obtain ⟨rs, f, p1, p2, -⟩ := play_contract {} {} sampleClass {} I hrel hrand (Seen [0]) hok (by norm_num)
    ⟨sampleEnv, .kinematics { features := ["presence", "vx", "vy"] } none⟩ _ (kinematics_serves {} [0] _ hnorm none (by simp))
    sample_ready ⟨hobs, rfl⟩ _ has
  exact ⟨rs, f, by simpa using p2, p1, (moved_play ⟨1000, 0⟩ {} {} sampleClass {} (positionFree_at hfree _) ⟨fun _ _ => rfl, fun _ _ => rfl, fun _ _ => rfl⟩ _ _ _ _
    (.kinematics _ _ rfl (by simp) (by simp)) p1).1⟩

end HighwayEnv.Props
