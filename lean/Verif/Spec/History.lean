import Verif.Spec.Episode

/-!
# Specification vocabulary: recorded histories
-/

noncomputable section
namespace HighwayEnv.Spec
open HighwayEnv

/-- A record of where a vehicle is.  (The recorded speed is the one before the collisions of the frame, if the vehicle has crashed.) -/
def ShowsState (h : Snapshot) (v : Vehicle) : Prop := h.pos = v.pos ∧ h.heading = v.heading ∧ (h.speed = v.speed ∨ v.crashed = true)

/-- `w` is `v` one frame later, and the frame has been added in front of the records, of which the last 30 are kept. -/
def FrameRecorded (v w : Vehicle) : Prop := w.uid = v.uid ∧ ∃ h, ShowsState h w ∧ w.history = (h :: v.history).take 30

/-- `w` is `v` some time later, and nothing has been recorded. -/
def FrameUnrecorded (v w : Vehicle) : Prop := w.uid = v.uid ∧ w.history = v.history

end HighwayEnv.Spec
