import Verif.Model.TrajIO
/-!
# Rosbag import: `input_output/rosbag.py`, `input_output/rosmsg.py`

Opening bags and deserializing messages is left to the rosbags library: a bag is the sequence of its messages.
Simplified: messages of types the library cannot deserialize do not occur.
-/
namespace TC
namespace Ros
variable {K R : Type} [Field K] [LinearOrder K]

/-- a message of a bag: the topic and the message type of its connection and, for pose messages, the stamp and the pose
(input_output/rosmsg.py:10-40) -/
structure Msg (K : Type) where
  topic : String
  msgtype : String
  sec : Int
  nanosec : Int
  position : V3 K
  orientation : Q4 K

/-- `geometry_pose_stamped_handler` (input_output/rosmsg.py:43-61) -/
def poseHandler (m : Msg K) : List (String × K) :=
  [("tstamps", (m.sec : K) + (m.nanosec : K) * (1 / 10 ^ 9)),
   ("x", m.position.x), ("y", m.position.y), ("z", m.position.z),
   ("qx", m.orientation.x), ("qy", m.orientation.y), ("qz", m.orientation.z), ("qw", m.orientation.w)]

/-- a column of numbers appended to the columns of a topic (input_output/rosbag.py:93-96): `data[key]` -/
def addColumn (cols : List (String × List K)) (sub : String) (v : K) : List (String × List K) :=
  match cols with
  | [] => [(sub, [v])]
  | (k, l) :: cols => if k = sub then (k, l ++ [v]) :: cols else (k, l) :: addColumn cols sub v

/-- `add_to_dict` (input_output/rosbag.py:82-96) -/
def addToDict (data : List (String × List (String × List K))) (key sub : String) (v : K) :
    List (String × List (String × List K)) :=
  match data with
  | [] => [(key, addColumn [] sub v)]
  | (k, cols) :: data => if k = key then (k, addColumn cols sub v) :: data else (k, cols) :: addToDict data key sub v

/-- the body of the loop over the messages (input_output/rosbag.py:69-77); messages without a handler are skipped -/
def addMsg (data : List (String × List (String × List K))) (m : Msg K) : List (String × List (String × List K)) :=
  if m.msgtype = "geometry_msgs/msg/PoseStamped" then
    (poseHandler m).foldl (fun d kv => addToDict d m.topic kv.1 kv.2) data
  else data

/-- `read_ros_bag` (input_output/rosbag.py:56-79) -/
def readBag (ms : List (Msg K)) : List (String × List (String × List K)) := ms.foldl addMsg []

/-- `traj_data[key]` -/
def column (cols : List (String × List K)) (key : String) : Except Err (List K) :=
  match cols.find? (fun c => decide (c.1 = key)) with
  | some c => .ok c.2
  | none => .error .keyError

/-- `np.c_[a, b, c]`: `ValueError` for columns of different length -/
def cols3 (a b c : List K) : Except Err (List (V3 K)) :=
  if a.length = b.length ∧ b.length = c.length then .ok ((a.zip (b.zip c)).map (fun s => ⟨s.1, s.2.1, s.2.2⟩))
  else .error .valueError

/-- the trajectory of one topic (input_output/rosbag.py:40-50); `from_quat` of no rows raises `ValueError` -/
def trajectoryOf (io : IoLib K R) (counter : Nat) (key : String) (cols : List (String × List K)) :
    Except Err (Traj K R) := do
  let x ← column cols "x"
  let y ← column cols "y"
  let z ← column cols "z"
  let pos ← cols3 x y z
  let rot ← if ["qx", "qy", "qz", "qw"].any (fun k => (cols.find? (fun c => decide (c.1 = k))).isNone) then pure none
    else do
      let qx ← column cols "qx"
      let qy ← column cols "qy"
      let qz ← column cols "qz"
      let qw ← column cols "qw"
      let v ← cols3 qx qy qz
      if qw.length ≠ v.length then throw Err.valueError
      if qw.length = 0 then throw Err.valueError
      let r ← mapE io.fromQuat ((v.zip qw).map (fun s => ⟨s.1.x, s.1.y, s.1.z, s.2⟩))
      pure (some r)
  let tstamps := match cols.find? (fun c => decide (c.1 = "tstamps")) with
    | some c => c.2
    | none => (List.range pos.length).map (fun i : Nat => (i : K))
  Traj.new io.nrm counter { pos := pos, rot := rot, tstamps := some tstamps, name := key }

/-- the loop over the topics (input_output/rosbag.py:39-51); every constructed trajectory increases the counter -/
def trajectoriesOf (io : IoLib K R) : Nat → List (String × List (String × List K)) → Except Err (List (Traj K R))
  | _, [] => .ok []
  | counter, (key, cols) :: data => do
    let t ← trajectoryOf io counter key cols
    let ts ← trajectoriesOf io (counter + 1) data
    return t :: ts

/-- `trajectories_from_rosbag` (input_output/rosbag.py:27-53) -/
def fromRosbag (io : IoLib K R) (counter : Nat) (ms : List (Msg K)) : Except Err (List (Traj K R)) :=
  trajectoriesOf io counter (readBag ms)

end Ros
end TC
