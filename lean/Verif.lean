import Verif.Props.Utils
import Verif.Props.Lane
import Verif.Props.Network
import Verif.Props.Kinematics
import Verif.Props.Collision
import Verif.Props.Queries
import Verif.Props.Controller
import Verif.Props.Cruise
import Verif.Props.NoRaise
import Verif.Props.Predict
import Verif.Props.Behavior
import Verif.Props.LaneChange
import Verif.Props.Traffic
import Verif.Props.Regulation
import Verif.Props.Episode
import Verif.Props.EnvSafe
import Verif.Props.Action
import Verif.Props.Transform
import Verif.Props.Highway
import Verif.Props.Routes
import Verif.Props.Observation
import Verif.Props.FiniteMdp
import Verif.Props.Interval
import Verif.Props.Lpv
import Verif.Props.Prediction
import Verif.Props.Occupancy
import Verif.Props.Merge
import Verif.Props.TwoWay
import Verif.Props.Cone
import Verif.Props.Horizon
import Verif.Props.TwoWayRun
import Verif.Props.RoundMap
import Verif.Props.Roundabout
import Verif.Props.InterMap
import Verif.Props.InterPlace
import Verif.Props.InterTraffic
import Verif.Props.Intersection
import Verif.Props.ParkMap
import Verif.Props.Parking
import Verif.Props.Summon
import Verif.Props.LaneKeeping
import Verif.Props.Bicycle
import Verif.Props.Regression
import Verif.Props.MultiModel
import Verif.Props.IntervalVehicle
import Verif.Props.IntervalRun
import Verif.Props.Platoon
import Verif.Props.Rendering
import Verif.Props.Keyboard
import Verif.Props.Drawing
import Verif.Props.Spaces
import Verif.Props.Config
import Verif.Props.Full
import Verif.Props.GoalEnv
import Verif.Props.Contract
import Verif.Props.Wrapper
import Verif.Props.Recover
import Verif.Props.LaneKeep
import Verif.Props.Translate
import Verif.Props.Settle
import Verif.Props.Along
import Verif.Props.Lanes
import Verif.Props.Seeds
import Verif.Props.Journey
import Verif.Props.Junction
import Verif.Props.Process
import Verif.Props.Team
import Verif.Props.Chance
import Verif.Props.Ladder
import Verif.Props.History
import Verif.Props.Causality
import Verif.Props.Joint
import Verif.Props.Quarter
import Verif.Props.Mirror
import Verif.Props.MirrorSight
import Verif.Props.MirrorBicycle
import Verif.Props.MirrorEpisode
import Verif.Props.MirrorParking
import Verif.Props.Moved
import Verif.Props.MovedTraffic
import Verif.Props.Turned
import Verif.Props.TurnedGoal
