import Verif.Spec.History
import Verif.Props.Episode
import Verif.Props.Ladder
import Verif.Props.Lanes
import Verif.Props.Parking

/-!
# C74: recorded histories, in whole simulations
-/

noncomputable section
open Classical
namespace HighwayEnv.Props
open HighwayEnv Spec

namespace History

theorem step_history {g : Graph} {rec : Bool} {dt : ℝ} {v w : Vehicle} (h : Road.SteppedTo g rec dt v w) :
    if rec then FrameRecorded v w else FrameUnrecorded v w := by
  obtain ⟨u, hu, s, b, rfl, -, -, hc⟩ := h
  unfold Vehicle.step Vehicle.onStateUpdate at hu
  obtain ⟨i, -, hu⟩ := bind_ok hu
  obtain ⟨l, -, hu⟩ := bind_ok hu
  have hm : (v.move dt).uid = v.uid ∧ (v.move dt).history = v.history := by
    have hcl : ∀ x : Vehicle, x.clipActions.uid = x.uid ∧ x.clipActions.history = x.history := by
      intro x
      unfold Vehicle.clipActions Vehicle.clipActionsBase
      dsimp only
      split_ifs <;> exact ⟨rfl, rfl⟩
    unfold Vehicle.move
    split <;> dsimp only <;> split <;> first | exact hcl _ | exact ⟨(hcl _).1, (hcl _).2⟩
  have hu' := Except.ok.inj hu
  subst hu'
  cases rec with
  | true =>
    rw [if_pos rfl]
    refine ⟨hm.1, ⟨(v.move dt).pos, (v.move dt).heading, (v.move dt).speed⟩, ⟨rfl, rfl, ?_⟩, ?_⟩
    · rcases hc with hc | ⟨-, hb⟩
      · left; rw [hc]
      · right; exact hb
    · show List.take 30 (_ :: (v.move dt).history) = _
      rw [hm.2]
  | false => rw [if_neg (by simp)]; exact ⟨hm.1, hm.2⟩

theorem road_step_history {r r' : Road} {dt : ℝ} (h : r.step dt = .ok r') :
    r'.recordHistory = r.recordHistory ∧ Pointwise (fun v w => if r.recordHistory then FrameRecorded v w else FrameUnrecorded v w) r.vehicles r'.vehicles := by
  obtain ⟨a1, -, a3, -⟩ := Road.step_frame h
  refine ⟨a3, a1.1, fun i v hv => ?_⟩
  obtain ⟨w, hw, u, ⟨ts, y, t, c, rfl⟩, hs⟩ := a1.2 i v hv
  refine ⟨w, hw, ?_⟩
  have := step_history hs
  dsimp only
  split at this <;> rename_i hr
  · rw [if_pos hr]; exact this
  · rw [if_neg hr]; exact this

theorem body_then {r : Road} {vs us ws : List Vehicle} (h1 : Pointwise SameBody vs us)
    (h2 : Pointwise (fun v w => if r.recordHistory then FrameRecorded v w else FrameUnrecorded v w) us ws) :
    Pointwise (fun v w => if r.recordHistory then FrameRecorded v w else FrameUnrecorded v w) vs ws := by
  refine ⟨h2.1.trans h1.1, fun i v hv => ?_⟩
  obtain ⟨u, hu, hb⟩ := h1.2 i v hv
  obtain ⟨w, hw, h⟩ := h2.2 i u hu
  refine ⟨w, hw, ?_⟩
  dsimp only
  split at h <;> rename_i hr
  · rw [if_pos hr]
    obtain ⟨a, s, b, c⟩ := h
    exact ⟨a.trans hb.uid, s, b, by rw [c, hb.history]⟩
  · rw [if_neg hr]; exact ⟨h.1.trans hb.uid, h.2.trans hb.history⟩

theorem body_trans {a b c : Road} (h1 : Pointwise SameBody a.vehicles b.vehicles ∧ Road.SameScene a b) (h2 : Pointwise SameBody b.vehicles c.vehicles ∧ Road.SameScene b c) :
    Pointwise SameBody a.vehicles c.vehicles ∧ Road.SameScene a c := ⟨Pointwise.comp (R := SameBody) SameBody.trans h1.1 h2.1, h1.2.trans h2.2⟩

theorem agentAct_body {G : Globals} {t : AgentType} {r r' : Road} {uid : ℕ} {a : AgentAction} (h : r.agentAct G t uid a = .ok r') :
    Pointwise SameBody r.vehicles r'.vehicles ∧ Road.SameScene r r' := by
  unfold Road.agentAct at h
  obtain ⟨c, -, h⟩ := bind_ok h
  split at h
  · cases h; exact ⟨.refl' SameBody.refl _, rfl, rfl, rfl, rfl, rfl⟩
  · exact Road.actAt_frame h

theorem envAct_body {G : Globals} {t : ActionType} {ctl : List ℕ} {r r' : Road} {a : AgentAction} (h : r.envAct G t ctl a = .ok r') :
    Pointwise SameBody r.vehicles r'.vehicles ∧ Road.SameScene r r' := by
  unfold Road.envAct at h
  split at h
  · split at h
    · cases h
    · exact agentAct_body h
  · split at h
    · exact Vehicle.foldlM_rel (R := fun r r' => Pointwise SameBody r.vehicles r'.vehicles ∧ Road.SameScene r r') (fun b => ⟨.refl' SameBody.refl _, rfl, rfl, rfl, rfl, rfl⟩)
        (fun a b c h1 h2 => body_trans h1 h2) (fun b x b' hb => agentAct_body hb) _ _ _ h
    · cases h

theorem frame_env {G : Globals} {c : SimConfig} {k : Int} {a : Option AgentAction} {e e' : Env} (h : e.frame G c k a = .ok e') :
    e'.time = e.time + 1 ∧ e'.road.recordHistory = e.road.recordHistory ∧
      Pointwise (fun v w => if e.road.recordHistory then FrameRecorded v w else FrameUnrecorded v w) e.road.vehicles e'.road.vehicles := by
  unfold Env.frame at h
  obtain ⟨e1, h1, h⟩ := bind_ok h
  obtain ⟨r2, h2, h⟩ := bind_ok h
  obtain ⟨r3, h3, h⟩ := bind_ok h
  cases h
  have hf : Pointwise SameBody e.road.vehicles e1.road.vehicles ∧ Road.SameScene e.road e1.road ∧ e1.time = e.time := by
    unfold Env.forward at h1
    split at h1
    · cases h1; exact ⟨.refl' SameBody.refl _, ⟨rfl, rfl, rfl, rfl, rfl⟩, rfl⟩
    · split at h1
      · obtain ⟨r, hr, h1⟩ := bind_ok h1
        cases h1
        obtain ⟨x, y⟩ := envAct_body hr
        exact ⟨x, y, rfl⟩
      · cases h1; exact ⟨.refl' SameBody.refl _, ⟨rfl, rfl, rfl, rfl, rfl⟩, rfl⟩
  obtain ⟨b1, b2⟩ := Road.act_frame h2
  obtain ⟨c1, c2⟩ := road_step_history h3
  have hrec : r2.recordHistory = e.road.recordHistory := (hf.2.1.trans b2).recordHistory
  refine ⟨by rw [hf.2.2], c1.trans hrec, ?_⟩
  rw [hrec] at c2
  exact body_then (r := e.road) (Pointwise.comp (R := SameBody) SameBody.trans hf.1 b1) c2

/-- What one frame does to the length of the records. -/
theorem length_frame {v w : Vehicle} {n : ℕ} (h : FrameRecorded v w) (hn : v.history.length = min 30 n) : w.history.length = min 30 (n + 1) := by
  obtain ⟨-, s, -, e⟩ := h
  rw [e, List.length_take, List.length_cons, hn]
  omega

/-- The records are as long as the time that has passed, up to 30. -/
def Kept (b : Bool) (e : Env) : Prop := e.road.recordHistory = b ∧ ∀ v ∈ e.road.vehicles, v.history.length = if b then min 30 e.time else 0

theorem kept_frame {b : Bool} {G : Globals} {c : SimConfig} {k : Int} {a : Option AgentAction} {e e' : Env} (h : e.frame G c k a = .ok e') (hK : Kept b e) : Kept b e' := by
  obtain ⟨h1, h2, h3⟩ := frame_env h
  refine ⟨h2.trans hK.1, fun w hw => ?_⟩
  obtain ⟨i, hi⟩ := List.mem_iff_getElem?.1 hw
  have hlt : i < e.road.vehicles.length := by rw [← h3.1]; exact (List.getElem?_eq_some_iff.1 hi).1
  obtain ⟨w', hw', hr⟩ := h3.2 i _ (List.getElem?_eq_getElem hlt)
  have : w' = w := Option.some.inj (hw'.symm.trans hi)
  subst this
  have hv := hK.2 _ (List.getElem_mem hlt)
  rw [hK.1] at hr
  cases b with
  | true =>
    rw [if_pos rfl] at hv hr ⊢
    rw [h1]
    exact length_frame hr hv
  | false =>
    rw [if_neg (by simp)] at hv hr ⊢
    rw [hr.2, hv]

theorem kept_loop {b : Bool} {G : Globals} {c : SimConfig} {cls : EnvClass} {k : Int} {a : Option AgentAction} (n : ℕ) {e e' : Env} (h : Env.simulateLoop G c cls k a n e = .ok e')
    (hK : Kept b e) : Kept b e' := by
  induction n generalizing e with
  | zero => cases h; exact hK
  | succ n ih =>
    unfold Env.simulateLoop at h
    obtain ⟨e1, h1, h⟩ := bind_ok h
    obtain ⟨x, -, h⟩ := bind_ok h
    have := kept_frame h1 hK
    cases x with
    | true => rw [if_pos rfl] at h; cases h; exact this
    | false => rw [if_neg (by simp)] at h; exact ih h this

theorem kept_step {b : Bool} {G : Globals} {c : SimConfig} {cls : EnvClass} (hafter : ∀ e, cls.after e = .ok e) {a : Option AgentAction} {e e' : Env} {res : StepResult}
    (h : e.step G c cls a = .ok (e', res)) (hK : Kept b e) : Kept b e' := by
  unfold Env.step at h
  split at h
  · cases h
  obtain ⟨e1, h1, h⟩ := bind_ok h
  obtain ⟨_, -, h⟩ := bind_ok h
  obtain ⟨_, -, h⟩ := bind_ok h
  obtain ⟨_, -, h⟩ := bind_ok h
  obtain ⟨_, -, h⟩ := bind_ok h
  obtain ⟨e2, h2, h⟩ := bind_ok h
  rw [hafter e1] at h2
  have h2' := Except.ok.inj h2
  subst h2'
  have h' := congrArg Prod.fst (Except.ok.inj h)
  dsimp only at h'
  subst h'
  unfold Env.simulate at h1
  obtain ⟨k, -, h1⟩ := bind_ok h1
  exact kept_loop _ h1 hK

theorem kept_episode {b : Bool} {G : Globals} {c : SimConfig} {cls : EnvClass} (hafter : ∀ e, cls.after e = .ok e) {as : List AgentAction} {rs : List StepResult} {e e' : Env}
    (h : Episode G c cls e as rs e') (hK : Kept b e) : Kept b e' := by
  induction h with
  | start => exact hK
  | step _ hs ih => exact kept_step hafter hs ih

/-! ### Resets -/

/-- A road just built. -/
def Blank (b : Bool) (r : Road) : Prop := r.recordHistory = b ∧ ∀ v ∈ r.vehicles, v.history = []

theorem blank_add {b : Bool} {r : Road} (h : Blank b r) {v : Vehicle} (hv : v.history = []) (rng : Rng) : Blank b { r with vehicles := r.vehicles ++ [v], rng := rng } := by
  refine ⟨h.1, fun w hw => ?_⟩
  rcases List.mem_append.1 hw with hw | hw
  · exact h.2 w hw
  · rw [List.mem_singleton.1 hw]; exact hv

theorem blank_fold {b : Bool} {α : Type} {f : Road → α → Py Road} (hf : ∀ r i r', f r i = .ok r' → Blank b r → Blank b r') (l : List α) {r r' : Road} (h : l.foldlM f r = .ok r')
    (hr : Blank b r) : Blank b r' := by
  induction l generalizing r with
  | nil => rw [List.foldlM_nil] at h; cases h; exact hr
  | cons a l ih =>
    rw [List.foldlM_cons] at h
    obtain ⟨r1, h1, h⟩ := bind_ok h
    exact ih h (hf _ _ _ h1 hr)

theorem blank_kept {b : Bool} {e : Env} (h : Blank b e.road) (h0 : e.time = 0) : Kept b e := by
  refine ⟨h.1, fun v hv => ?_⟩
  rw [h.2 v hv, h0]
  cases b <;> rfl

theorem mk_blank {G : Globals} {g : Graph} {uid : ℕ} {kind : VKind} {pos : Vec2} {heading speed : ℝ} {b : Bool} {tm : Option ℝ} {r : Option (List RouteStep)} {tl : Option LaneIndex}
    {ts : Option ℝ} {v : Vehicle} (h : Vehicle.mk' G g uid kind pos heading speed tl ts r b tm = .ok v) : v.history = [] := by
  unfold Vehicle.mk' at h
  obtain ⟨i, -, h⟩ := bind_ok h
  obtain ⟨l, -, h⟩ := bind_ok h
  cases h
  rfl

theorem plan_blank {g : Graph} {ord : Graph.SetOrder} {v w : Vehicle} {d : String} (h : v.planRouteTo g ord d = .ok w) (hv : v.history = []) : w.history = [] := by
  unfold Vehicle.planRouteTo at h
  dsimp only at h
  split at h
  · obtain ⟨_, -, h⟩ := bind_ok h; cases h; exact hv
  · obtain ⟨_, -, h⟩ := bind_ok h; cases h; exact hv
  · obtain ⟨_, h', h⟩ := bind_ok h; cases h'

theorem onLane_blank {G : Globals} {g : Graph} {uid : ℕ} {kind : VKind} {i : LaneIndex} {s : ℝ} {sp : Option ℝ} {v : Vehicle} (h : Vehicle.makeOnLane G g uid kind i s sp = .ok v) :
    v.history = [] := by
  unfold Vehicle.makeOnLane at h
  obtain ⟨l, -, h⟩ := bind_ok h
  exact mk_blank h

theorem random_blank {b : Bool} {G : Globals} {kind : VKind} {speed : Option ℝ} {lane : Option Int} {spacing : ℝ} (n : ℕ) (uid : ℕ) {r r' : Road}
    (h : r.addRandom G kind speed lane spacing n uid = .ok r') (hr : Blank b r) : Blank b r' := by
  induction n generalizing uid r with
  | zero => cases h; exact hr
  | succ n ih =>
    unfold Road.addRandom at h
    obtain ⟨⟨v, rng⟩, hv, h⟩ := bind_ok h
    refine ih (uid + 1) h (blank_add hr ?_ rng)
    unfold Vehicle.createRandom at hv
    dsimp only at hv
    obtain ⟨⟨a, _⟩, -, hv⟩ := bind_ok hv
    obtain ⟨d, -, hv⟩ := bind_ok hv
    obtain ⟨⟨b, _⟩, -, hv⟩ := bind_ok hv
    obtain ⟨ls, -, hv⟩ := bind_ok hv
    obtain ⟨⟨k, _⟩, -, hv⟩ := bind_ok hv
    obtain ⟨l, -, hv⟩ := bind_ok hv
    obtain ⟨x, hx, hv⟩ := bind_ok hv
    cases hv
    exact mk_blank hx

theorem highway_blank {G : Globals} {cfg : HighwayConfig} {rng : Rng} {e : Env} (h : Highway.reset G cfg rng = .ok e) : Kept cfg.showTrajectories e := by
  unfold Highway.reset at h
  obtain ⟨_, -, h⟩ := bind_ok h
  obtain ⟨r, hr, h⟩ := bind_ok h
  cases h
  refine blank_kept ?_ rfl
  unfold Highway.createVehicles at hr
  obtain ⟨r1, hr1, hr⟩ := bind_ok hr
  have h1 := random_blank (b := cfg.showTrajectories) _ _ hr1 ⟨rfl, by simp [Highway.createRoad]⟩
  split at hr
  · cases hr
  · exact random_blank _ _ hr h1

theorem merge_blank {G : Globals} {cfg : MergeConfig} {rng : Rng} {e : Env} (h : Merge.reset G cfg rng = .ok e) : Kept cfg.showTrajectories e := by
  have hp : ∀ {g : Graph} {uid : ℕ} {kind : VKind} {i : LaneIndex} {s sp : ℝ} {v : Vehicle}, Merge.place G g uid kind i s sp = .ok v → v.history = [] := by
    intro g uid kind i s sp v hv
    unfold Merge.place at hv
    obtain ⟨l, -, hv⟩ := bind_ok hv
    exact mk_blank hv
  unfold Merge.reset at h
  obtain ⟨_, -, h⟩ := bind_ok h
  obtain ⟨r, hr, h⟩ := bind_ok h
  cases h
  refine blank_kept ?_ rfl
  unfold Merge.makeVehicles at hr
  obtain ⟨v0, h0, hr⟩ := bind_ok hr
  obtain ⟨v1, h1, hr⟩ := bind_ok hr
  obtain ⟨v2, h2, hr⟩ := bind_ok hr
  obtain ⟨v3, h3, hr⟩ := bind_ok hr
  obtain ⟨v4, h4, hr⟩ := bind_ok hr
  cases hr
  refine ⟨rfl, fun v hv => ?_⟩
  simp only [List.mem_cons, List.mem_nil_iff, or_false] at hv
  rcases hv with rfl | rfl | rfl | rfl | rfl
  · exact hp h0
  · exact hp h1
  · exact hp h2
  · exact hp h3
  · exact hp (v := v4) h4

theorem twoWay_blank {G : Globals} {cfg : TwoWayConfig} {rng : Rng} {e : Env} (h : TwoWay.reset G cfg rng = .ok e) : Kept cfg.showTrajectories e := by
  have hp : ∀ {g : Graph} {uid : ℕ} {kind : VKind} {p : Vec2} {s sp : ℝ} {v : Vehicle}, TwoWay.noLaneChange G g uid kind p s sp = .ok v → v.history = [] := by
    intro g uid kind i s sp v hv
    unfold TwoWay.noLaneChange at hv
    split at hv
    · exact mk_blank hv
    · cases hv
  unfold TwoWay.reset at h
  obtain ⟨_, -, h⟩ := bind_ok h
  obtain ⟨r, hr, h⟩ := bind_ok h
  cases h
  refine blank_kept ?_ rfl
  unfold TwoWay.makeVehicles at hr
  obtain ⟨l, -, hr⟩ := bind_ok hr
  obtain ⟨v0, h0, hr⟩ := bind_ok hr
  obtain ⟨r1, hr1, hr⟩ := bind_ok hr
  refine blank_fold ?_ _ hr (blank_fold ?_ _ hr1 (blank_add (b := cfg.showTrajectories) (r := TwoWay.makeRoad cfg rng) ⟨rfl, by simp [TwoWay.makeRoad]⟩ (mk_blank h0) _))
  · intro a i c hc ha
    unfold TwoWay.addOncoming at hc
    obtain ⟨l, -, hc⟩ := bind_ok hc
    obtain ⟨x, hx, hc⟩ := bind_ok hc
    cases hc
    exact blank_add ha (v := { x with targetLane := ⟨"b", "a", 0⟩ }) (hp (v := x) hx) _
  · intro a i c hc ha
    unfold TwoWay.addAhead at hc
    obtain ⟨l, -, hc⟩ := bind_ok hc
    obtain ⟨x, hx, hc⟩ := bind_ok hc
    cases hc
    exact blank_add ha (hp hx) _

theorem round_blank {G G' : Globals} {cfg : RoundaboutConfig} {ord : Graph.SetOrder} {rng : Rng} {e : Env} (h : Roundabout.reset G cfg ord rng = .ok (G', e)) :
    Kept cfg.showTrajectories e := by
  have hp : ∀ {G : Globals} {kind : VKind} {pick : Rng → Py (String × Rng)} {i : LaneIndex} {s : ℝ} {uid : ℕ} {r r' : Road}, Roundabout.addVehicle G kind ord pick i s uid r = .ok r' →
      Blank cfg.showTrajectories r → Blank cfg.showTrajectories r' := by
    intro G kind pick i s uid r r' hr hb
    unfold Roundabout.addVehicle at hr
    dsimp only at hr
    obtain ⟨v, hv, hr⟩ := bind_ok hr
    obtain ⟨⟨d, rng1⟩, -, hr⟩ := bind_ok hr
    obtain ⟨⟨w, rng2⟩, hw, hr⟩ := bind_ok hr
    cases hr
    refine blank_add hb ?_ _
    unfold Roundabout.prepare at hw
    split at hw
    · obtain ⟨u, hu, hw⟩ := bind_ok hw
      have := plan_blank hu (onLane_blank hv)
      have hw' := congrArg Prod.fst (Except.ok.inj hw)
      dsimp only at hw'
      rw [← hw']
      unfold Env.randomizeVehicle
      split <;> exact this
    · cases hw
  unfold Roundabout.reset at h
  obtain ⟨_, -, h⟩ := bind_ok h
  obtain ⟨⟨G1, r⟩, hr, h⟩ := bind_ok h
  cases h
  refine blank_kept ?_ rfl
  unfold Roundabout.makeVehicles at hr
  obtain ⟨v, hv, hr⟩ := bind_ok hr
  dsimp only at hr
  obtain ⟨r1, h1, hr⟩ := bind_ok hr
  obtain ⟨r2, h2, hr⟩ := bind_ok hr
  obtain ⟨r3, h3, hr⟩ := bind_ok hr
  obtain ⟨r4, h4, hr⟩ := bind_ok hr
  cases hr
  refine hp h4 (hp h3 (hp h2 (hp h1 (blank_add (r := Roundabout.makeRoad cfg rng) ⟨rfl, by simp [Roundabout.makeRoad]⟩ ?_ _))))
  unfold Roundabout.ego at hv
  obtain ⟨l, -, hv⟩ := bind_ok hv
  obtain ⟨w, hw, hv⟩ := bind_ok hv
  unfold Roundabout.planEgo at hv
  split at hv
  · exact plan_blank hv (mk_blank hw)
  · cases hv; exact mk_blank hw

theorem parking_blank {G : Globals} {cfg : ParkingConfig} {rng : Rng} {e : Env} (h : Parking.reset G cfg rng = .ok e) : Kept cfg.showTrajectories e := by
  unfold Parking.reset at h
  obtain ⟨_, -, h⟩ := bind_ok h
  obtain ⟨r, hr, h⟩ := bind_ok h
  cases h
  refine blank_kept ?_ rfl
  unfold Parking.makeVehicles at hr
  obtain ⟨r1, h1, hr⟩ := bind_ok hr
  obtain ⟨⟨l, rng1⟩, -, hr⟩ := bind_ok hr
  cases hr
  have := blank_fold (b := cfg.showTrajectories) ?_ _ h1 ⟨rfl, by simp [Parking.makeRoad]⟩
  · exact this
  · intro a i c hc ha
    unfold Parking.addEgo at hc
    obtain ⟨x, hx, hc⟩ := bind_ok hc
    cases hc
    exact blank_add ha (mk_blank hx) _

end History

open History in
/-- **C74, one frame of the environment.**  Whatever action is forwarded, after a frame every vehicle's history shows its current place in front of the previous history, cut to 30
records, if the road records histories, and is unchanged otherwise. -/
theorem frame_records (G : Globals) (c : SimConfig) (k : Int) (a : Option AgentAction) (e e' : Env) (h : e.frame G c k a = .ok e') :
    Pointwise (fun v w => if e.road.recordHistory then FrameRecorded v w else FrameUnrecorded v w) e.road.vehicles e'.road.vehicles := (frame_env h).2.2

open History in
/-- **C74, replay.**  If frames are recorded, the `d`-th record of a vehicle shows where it was `d` frames ago: in any run of frames with any commands, record `d < 30` of the vehicle after
the last of `n` frames shows the vehicle after frame `n - d`. -/
theorem history_replays (G : Globals) (dt : ℝ) (r : Road) (hr : r.recordHistory = true) (before after : List (List (ℕ × VAction))) (hb : before ≠ []) (hd : after.length < 30) (s t : Road)
    (h1 : frames G dt r before = .ok s) (h2 : frames G dt s after = .ok t) (i : ℕ) (v : Vehicle) (hv : s.vehicles[i]? = some v) :
    ∃ w h, t.vehicles[i]? = some w ∧ w.history[after.length]? = some h ∧ ShowsState h v := by
  have hframe : ∀ {a b : Road} {cmds : List (ℕ × VAction)}, a.recordHistory = true → Spec.frame G dt a cmds = .ok b → b.recordHistory = true ∧ Pointwise FrameRecorded a.vehicles b.vehicles := by
    intro a b cmds ha hab
    unfold Spec.frame at hab
    obtain ⟨a1, q1, hab⟩ := bind_ok hab
    obtain ⟨a2, q2, hab⟩ := bind_ok hab
    have p1 : Pointwise SameBody a.vehicles a1.vehicles ∧ Road.SameScene a a1 :=
      Vehicle.foldlM_rel (R := fun r r' => Pointwise SameBody r.vehicles r'.vehicles ∧ Road.SameScene r r') (fun b => ⟨.refl' SameBody.refl _, rfl, rfl, rfl, rfl, rfl⟩)
        (fun a b c h1 h2 => body_trans h1 h2) (fun b x b' hb => Road.actAt_frame hb) _ _ _ q1
    obtain ⟨b1, b2⟩ := Road.act_frame q2
    obtain ⟨c1, c2⟩ := road_step_history hab
    have hrec : a2.recordHistory = a.recordHistory := (p1.2.trans b2).recordHistory
    rw [hrec] at c1 c2
    have := body_then (r := a) (Pointwise.comp (R := SameBody) SameBody.trans p1.1 b1) c2
    refine ⟨c1.trans ha, this.1, fun i v hv => ?_⟩
    obtain ⟨w, hw, hx⟩ := this.2 i v hv
    rw [if_pos ha] at hx
    exact ⟨w, hw, hx⟩
  have hruns : ∀ (cs : List (List (ℕ × VAction))) (a b : Road), a.recordHistory = true → frames G dt a cs = .ok b → b.recordHistory = true := by
    intro cs
    induction cs with
    | nil => intro a b ha hab; unfold frames at hab; rw [List.foldlM_nil] at hab; cases hab; exact ha
    | cons c cs ih =>
      intro a b ha hab
      unfold frames at hab
      rw [List.foldlM_cons] at hab
      obtain ⟨x, hx, hab⟩ := bind_ok hab
      exact ih x b (hframe ha hx).1 hab
  have hs := hruns _ _ _ hr h1
  -- the first record after the last frame of `before`
  have hfirst : ∃ h, v.history[0]? = some h ∧ ShowsState h v := by
    obtain ⟨bs, c, rfl⟩ : ∃ bs c, before = bs ++ [c] := by
      rcases List.eq_nil_or_concat before with rfl | ⟨bs, c, rfl⟩
      · exact absurd rfl hb
      · exact ⟨bs, c, by simp⟩
    unfold frames at h1
    rw [List.foldlM_append] at h1
    obtain ⟨x, hx, h1⟩ := bind_ok h1
    rw [List.foldlM_cons] at h1
    obtain ⟨y, hy, h1⟩ := bind_ok h1
    rw [List.foldlM_nil] at h1
    have hys : y = s := Except.ok.inj h1
    subst hys
    obtain ⟨-, p1, p2⟩ := hframe (hruns bs r x hr hx) hy
    have hlt : i < x.vehicles.length := by rw [← p1]; exact (List.getElem?_eq_some_iff.1 hv).1
    obtain ⟨v', hv', -, h, hh, e⟩ := p2 i _ (List.getElem?_eq_getElem hlt)
    have : v' = v := Option.some.inj (hv'.symm.trans hv)
    subst this
    exact ⟨h, by rw [e]; rfl, hh⟩
  clear h1 hb
  obtain ⟨h, hh, hsh⟩ := hfirst
  have key : ∀ (cs : List (List (ℕ × VAction))) (a b : Road) (u : Vehicle) (d : ℕ), a.recordHistory = true → frames G dt a cs = .ok b → d + cs.length < 30 → a.vehicles[i]? = some u →
      u.history[d]? = some h → ∃ w, b.vehicles[i]? = some w ∧ w.history[d + cs.length]? = some h := by
    intro cs
    induction cs with
    | nil => intro a b u d ha hab _ hu hd; unfold frames at hab; rw [List.foldlM_nil] at hab; cases hab; exact ⟨u, hu, hd⟩
    | cons c cs ih =>
      intro a b u d ha hab hlt hu hd
      unfold frames at hab
      rw [List.foldlM_cons] at hab
      obtain ⟨x, hx, hab⟩ := bind_ok hab
      obtain ⟨hxr, -, p2⟩ := hframe ha hx
      obtain ⟨u', hu', -, g, -, e⟩ := p2 i u hu
      rw [List.length_cons] at hlt
      obtain ⟨w, hw, hwd⟩ := ih x b u' (d + 1) hxr hab (by omega) hu' (by rw [e, List.getElem?_take_of_lt (by omega), List.getElem?_cons_succ]; exact hd)
      refine ⟨w, hw, ?_⟩
      rw [List.length_cons, ← hwd]
      congr 1; omega
  obtain ⟨w, hw, hwd⟩ := key after s t v 0 hs h2 (by omega) hv hh
  exact ⟨w, h, hw, by rw [← hwd]; congr 1; omega, hsh⟩

open History in
/-- **C74, whole episodes.**  After any episode, every vehicle of the road has as many records as frames have passed since the reset, up to 30, if `show_trajectories` is configured — and
none otherwise.  (Highway; the other environments follow.) -/
theorem highway_history (G : Globals) (cfg : HighwayConfig) (rng : Rng) (e e' : Env) (hr : Highway.reset G cfg rng = .ok e) (as : List AgentAction) (rs : List StepResult)
    (hep : Episode G cfg.sim (Highway.cls cfg) e as rs e') (v : Vehicle) (hv : v ∈ e'.road.vehicles) : v.history.length = if cfg.showTrajectories then min 30 e'.time else 0 :=
  (kept_episode (fun _ => rfl) hep (highway_blank hr)).2 v hv

open History in
theorem merge_history (G : Globals) (cfg : MergeConfig) (rng : Rng) (e e' : Env) (hr : Merge.reset G cfg rng = .ok e) (as : List AgentAction) (rs : List StepResult)
    (hep : Episode G cfg.sim (Merge.cls G) e as rs e') (v : Vehicle) (hv : v ∈ e'.road.vehicles) : v.history.length = if cfg.showTrajectories then min 30 e'.time else 0 :=
  (kept_episode (fun _ => rfl) hep (merge_blank hr)).2 v hv

open History in
theorem twoWay_history (G : Globals) (cfg : TwoWayConfig) (rng : Rng) (e e' : Env) (hr : TwoWay.reset G cfg rng = .ok e) (as : List AgentAction) (rs : List StepResult)
    (hep : Episode G cfg.sim (TwoWay.cls G) e as rs e') (v : Vehicle) (hv : v ∈ e'.road.vehicles) : v.history.length = if cfg.showTrajectories then min 30 e'.time else 0 :=
  (kept_episode (fun _ => rfl) hep (twoWay_blank hr)).2 v hv

open History in
theorem round_history (G G' : Globals) (cfg : RoundaboutConfig) (ord : Graph.SetOrder) (rng : Rng) (e e' : Env) (hr : Roundabout.reset G cfg ord rng = .ok (G', e)) (as : List AgentAction)
    (rs : List StepResult) (hep : Episode G' cfg.sim (Roundabout.cls G' cfg) e as rs e') (v : Vehicle) (hv : v ∈ e'.road.vehicles) :
    v.history.length = if cfg.showTrajectories then min 30 e'.time else 0 :=
  (kept_episode (fun _ => rfl) hep (round_blank hr)).2 v hv

open History in
theorem parking_history (G : Globals) (cfg : ParkingConfig) (rng : Rng) (e e' : Env) (hr : Parking.reset G cfg rng = .ok e) (as : List AgentAction) (rs : List StepResult)
    (hep : Episode G cfg.sim (Parking.cls cfg) e as rs e') (v : Vehicle) (hv : v ∈ e'.road.vehicles) : v.history.length = if cfg.showTrajectories then min 30 e'.time else 0 :=
  (kept_episode (fun _ => rfl) hep (parking_blank hr)).2 v hv

/-- The hypotheses are met: after three decisions (45 frames, unless the episode ends before) of any merge episode with `show_trajectories`. -/
example (rng : Rng) : ∃ e rs e', Merge.reset {} { showTrajectories := true } rng = .ok e ∧ Episode {} ({ showTrajectories := true } : MergeConfig).sim (Merge.cls {}) e [.index 1, .index 1, .index 3] rs e' ∧
    rs.length = 3 ∧ ∀ v ∈ e'.road.vehicles, v.history.length = min 30 e'.time := by
  obtain ⟨e, rs, e', h1, h2, h3, -⟩ := merge_episode {} { showTrajectories := true } ⟨⟨true, true, rfl, .inl rfl⟩, by norm_num, by norm_num, .inl rfl⟩ (by norm_num) rng [.index 1, .index 1, .index 3] (by
    intro a ha
    simp only [List.mem_cons, List.mem_nil_iff, or_false] at ha
    rcases ha with rfl | rfl | rfl <;> exact ⟨by norm_num, by decide⟩)
  exact ⟨e, rs, e', h1, h2, by simpa using h3, fun v hv => merge_history {} { showTrajectories := true } rng e e' h1 _ rs h2 v hv⟩

end HighwayEnv.Props
