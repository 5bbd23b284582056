import Verif.Model.Ros
import Verif.Spec.IO
/-!
# What importing a rosbag means, independently of the import
-/
namespace TC
namespace Ros
variable {K R : Type} [Field K] [LinearOrder K]

/-- the pose messages of a bag -/
def poses (ms : List (Msg K)) : List (Msg K) :=
  ms.filter (fun m => decide (m.msgtype = "geometry_msgs/msg/PoseStamped"))

/-- the poses of one topic, in message order -/
def posesOf (τ : String) (ms : List (Msg K)) : List (Msg K) := (poses ms).filter (fun m => decide (m.topic = τ))

/-- the topics with poses, in order of their first pose -/
def topics (ms : List (Msg K)) : List String := ((poses ms).map (fun m => m.topic)).eraseDups

/-- seconds and nanoseconds as seconds -/
def time (m : Msg K) : K := (m.sec : K) + (m.nanosec : K) / 1000000000

/-- the trajectory `T` holds exactly the poses `ms` in their order -/
structure Holds (io : IoLib K R) (ms : List (Msg K)) (T : Traj K R) : Prop where
  coherent : Coherent T
  tstamps : T.tstamps = ms.map time
  pos : T.pos = ms.map (fun m => m.position)
  rot : ∃ rs, T.rot = some rs ∧
    List.Forall₂ (fun (m : Msg K) r => io.rot.toMat r = quatMat m.orientation) ms rs
  arc : T.arc = lengthsFromXyz io.nrm (ms.map (fun m => m.position))
  sorting : T.sorting = .time
  epsg : T.epsg = 0

end Ros
end TC
