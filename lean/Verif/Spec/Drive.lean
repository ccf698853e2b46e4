import Verif.Model.Vehicle

/-!
# Specification vocabulary: driving one vehicle with a sequence of commands
-/

noncomputable section
namespace HighwayEnv.Spec
open HighwayEnv

/-- Apply commands `(steering, acceleration)` one after the other, each followed by one simulation step of duration `dt`: the
effect on one vehicle of `n` iterations of "store an action, `step(dt)`", whoever chose the actions. -/
def drive (g : Graph) (rec : Bool) (dt : ℝ) : List (ℝ × ℝ) → Vehicle → Py Vehicle
  | [], v => .ok v
  | c :: cs, v => do
    let v ← ({ v with steering := c.1, acceleration := c.2 } : Vehicle).step g rec dt
    drive g rec dt cs v

/-- Rigid motion of the plane applied to a vehicle: rotate its pose by `a` about the origin, then translate by `t`. -/
def displace (a : ℝ) (t : Vec2) (v : Vehicle) : Vehicle :=
  { v with pos := Vec2.rot a v.pos + t, heading := v.heading + a }

end HighwayEnv.Spec
