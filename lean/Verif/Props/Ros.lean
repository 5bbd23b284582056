import Verif.Spec.Ros
import Verif.Props.Construct
import Verif.Props.ReadFile
import Verif.Proofs.Eval
/-!
# Properties of the rosbag import
-/
set_option linter.unusedSectionVars false
namespace TC
namespace Ros
variable {K R : Type} [Field K] [LinearOrder K]

theorem map_self {α : Type} {f : α → α} {l : List α} (h : ∀ a ∈ l, f a = a) : l.map f = l := by
  rw [List.map_congr_left h, List.map_id']

theorem addToDict_mem {data : List (String × List (String × List K))} {τ s : String} {v : K}
    (hn : (data.map Prod.fst).Nodup) (hm : τ ∈ data.map Prod.fst) :
    addToDict data τ s v = data.map (fun d => if d.1 = τ then (d.1, addColumn d.2 s v) else d) := by
  induction data with
  | nil => simp at hm
  | cons d data ih =>
    obtain ⟨k, cols⟩ := d
    simp only [List.map_cons, List.nodup_cons] at hn
    by_cases hk : k = τ
    · subst hk
      simp only [addToDict, if_true, List.map_cons, List.cons.injEq, true_and]
      symm
      refine map_self ?_
      intro d hd
      rw [if_neg]
      rintro rfl
      exact hn.1 (List.mem_map_of_mem hd)
    · simp only [List.map_cons, List.mem_cons] at hm
      simp only [addToDict, if_neg hk, List.map_cons]
      rw [ih hn.2 (hm.resolve_left (fun h => hk h.symm))]

theorem addToDict_not_mem {data : List (String × List (String × List K))} {τ s : String} {v : K}
    (hm : τ ∉ data.map Prod.fst) : addToDict data τ s v = data ++ [(τ, addColumn [] s v)] := by
  induction data with
  | nil => rfl
  | cons d data ih =>
    obtain ⟨k, cols⟩ := d
    simp only [List.map_cons, List.mem_cons, not_or] at hm
    simp only [addToDict, if_neg (fun h : k = τ => hm.1 h.symm), ih hm.2, List.cons_append]

theorem foldl_addToDict_mem {τ : String} (kvs : List (String × K)) {data : List (String × List (String × List K))}
    (hn : (data.map Prod.fst).Nodup) (hm : τ ∈ data.map Prod.fst) :
    kvs.foldl (fun d kv => addToDict d τ kv.1 kv.2) data =
      data.map (fun d => if d.1 = τ then (d.1, kvs.foldl (fun c kv => addColumn c kv.1 kv.2) d.2) else d) := by
  induction kvs generalizing data with
  | nil => simp
  | cons kv kvs ih =>
    have hk : (data.map (fun d => if d.1 = τ then (d.1, addColumn d.2 kv.1 kv.2) else d)).map Prod.fst =
        data.map Prod.fst := by
      rw [List.map_map]
      apply List.map_congr_left
      intro d _
      simp only [Function.comp]
      split_ifs <;> rfl
    rw [List.foldl_cons, addToDict_mem hn hm, ih (by rw [hk]; exact hn) (by rw [hk]; exact hm), List.map_map]
    apply List.map_congr_left
    intro d _
    by_cases h : d.1 = τ <;> simp [h]

theorem foldl_addToDict_not_mem {τ : String} (kv : String × K) (kvs : List (String × K))
    {data : List (String × List (String × List K))} (hn : (data.map Prod.fst).Nodup) (hm : τ ∉ data.map Prod.fst) :
    (kv :: kvs).foldl (fun d kv => addToDict d τ kv.1 kv.2) data =
      data ++ [(τ, (kv :: kvs).foldl (fun c kv => addColumn c kv.1 kv.2) [])] := by
  rw [List.foldl_cons, addToDict_not_mem hm, foldl_addToDict_mem]
  · simp only [List.map_append, List.map_cons, List.map_nil, if_true]
    congr 1
    refine map_self ?_
    intro d hd
    rw [if_neg]
    rintro rfl
    exact hm (List.mem_map_of_mem hd)
  · simp only [List.map_append, List.map_cons, List.map_nil]
    rw [List.nodup_append]
    refine ⟨hn, by simp, ?_⟩
    rintro a ha b hb rfl
    simp only [List.mem_singleton] at hb
    exact hm (hb ▸ ha)
  · simp

/-- the columns of a sequence of poses -/
def columnsOf (ms : List (Msg K)) : List (String × List K) :=
  [("tstamps", ms.map (fun m => (m.sec : K) + (m.nanosec : K) * (1 / 10 ^ 9))),
   ("x", ms.map (fun m => m.position.x)), ("y", ms.map (fun m => m.position.y)), ("z", ms.map (fun m => m.position.z)),
   ("qx", ms.map (fun m => m.orientation.x)), ("qy", ms.map (fun m => m.orientation.y)),
   ("qz", ms.map (fun m => m.orientation.z)), ("qw", ms.map (fun m => m.orientation.w))]

theorem columnsOf_append (ms : List (Msg K)) (m : Msg K) :
    (poseHandler m).foldl (fun c kv => addColumn c kv.1 kv.2) (columnsOf ms) = columnsOf (ms ++ [m]) := by
  simp [poseHandler, columnsOf, addColumn]

theorem columnsOf_nil (m : Msg K) :
    (poseHandler m).foldl (fun c kv => addColumn c kv.1 kv.2) [] = columnsOf [m] := by
  simp [poseHandler, columnsOf, addColumn]

theorem readBag_eq (ms : List (Msg K)) :
    (topics ms).Nodup ∧ readBag ms = (topics ms).map (fun τ => (τ, columnsOf (posesOf τ ms))) := by
  induction ms using List.reverseRecOn with
  | nil => exact ⟨List.nodup_nil, rfl⟩
  | append_singleton ms m ih =>
    obtain ⟨hn, he⟩ := ih
    have hr : readBag (ms ++ [m]) = addMsg (readBag ms) m := by simp [readBag]
    rw [hr]
    by_cases hm : m.msgtype = "geometry_msgs/msg/PoseStamped"
    · have hp : poses (ms ++ [m]) = poses ms ++ [m] := by simp [poses, hm]
      have hkeys : (readBag ms).map Prod.fst = topics ms := by rw [he]; simp [List.map_map, Function.comp_def]
      have hof : ∀ τ, posesOf τ (ms ++ [m]) = if m.topic = τ then posesOf τ ms ++ [m] else posesOf τ ms := by
        intro τ; unfold posesOf; rw [hp]; by_cases h : m.topic = τ <;> simp [h]
      simp only [addMsg, if_pos hm]
      by_cases ht : m.topic ∈ topics ms
      · have htop : topics (ms ++ [m]) = topics ms := by
          have ht' : m.topic ∈ (poses ms).map (fun m => m.topic) := List.mem_eraseDups.mp ht
          unfold topics
          rw [hp, List.map_append, List.eraseDups_append]
          have : ([m].map (fun m => m.topic)).removeAll ((poses ms).map (fun m => m.topic)) = [] := by
            simp only [List.map_cons, List.map_nil, List.removeAll]
            rw [List.filter_eq_nil_iff]
            intro a ha
            simp only [List.mem_singleton] at ha
            subst ha
            simpa using ht'
          rw [this]; simp
        refine ⟨htop ▸ hn, ?_⟩
        rw [foldl_addToDict_mem _ (hkeys ▸ hn) (hkeys ▸ ht), htop, he, List.map_map]
        apply List.map_congr_left
        intro τ _
        simp only [Function.comp, hof]
        by_cases h : τ = m.topic
        · subst h; simp [columnsOf_append]
        · rw [if_neg h, if_neg (fun h' : m.topic = τ => h h'.symm)]
      · have htop : topics (ms ++ [m]) = topics ms ++ [m.topic] := by
          have ht' : m.topic ∉ (poses ms).map (fun m => m.topic) := fun h => ht (List.mem_eraseDups.mpr h)
          unfold topics
          rw [hp, List.map_append, List.eraseDups_append]
          have : ([m].map (fun m => m.topic)).removeAll ((poses ms).map (fun m => m.topic)) = [m.topic] := by
            simp only [List.map_cons, List.map_nil, List.removeAll]
            rw [List.filter_eq_self]
            intro a ha
            simp only [List.mem_singleton] at ha
            subst ha
            simpa using ht'
          rw [this]; rfl
        have hempty : posesOf m.topic ms = [] := by
          unfold posesOf
          rw [List.filter_eq_nil_iff]
          intro a ha h
          simp only [decide_eq_true_eq] at h
          exact ht (List.mem_eraseDups.mpr (h ▸ List.mem_map_of_mem ha))
        refine ⟨?_, ?_⟩
        · rw [htop, List.nodup_append]
          refine ⟨hn, by simp, ?_⟩
          rintro a ha b hb rfl
          simp only [List.mem_singleton] at hb
          exact ht (hb ▸ ha)
        · have := foldl_addToDict_not_mem (τ := m.topic) ((poseHandler m).head (by simp [poseHandler])) (poseHandler m).tail
            (data := readBag ms) (hkeys ▸ hn) (hkeys ▸ ht)
          have hh : (poseHandler m).head (by simp [poseHandler]) :: (poseHandler m).tail = poseHandler m := rfl
          rw [hh, columnsOf_nil] at this
          rw [this, htop, List.map_append, he]
          congr 1
          · apply List.map_congr_left
            intro τ hτ
            rw [hof, if_neg]
            rintro rfl
            exact ht hτ
          · simp [hof, hempty]
    · have hp : poses (ms ++ [m]) = poses ms := by simp [poses, hm]
      have htop : topics (ms ++ [m]) = topics ms := by unfold topics; rw [hp]
      have hof : ∀ τ, posesOf τ (ms ++ [m]) = posesOf τ ms := by intro τ; unfold posesOf; rw [hp]
      simp only [addMsg, if_neg hm, htop, hof]
      exact ⟨hn, he⟩

theorem new_name {nrm : V3 K → K} {c : Nat} {a : TrajArgs K R} {T : Traj K R} (h : Traj.new nrm c a = .ok T) :
    T.name = if a.name = "" then "Trajectory " ++ toString c else a.name := by
  unfold Traj.new at h
  simp only [bind, Except.bind, pure, Except.pure, throw, throwThe, MonadExceptOf.throw] at h
  repeat' split at h
  all_goals first
  | cases h; done
  | (injection h with h; subst h; simp [*])

theorem trajectoryOf_columns [IsStrictOrderedRing K] {io : IoLib K R} (hio : IsIoLib io) (c : Nat) (τ : String)
    {ms : List (Msg K)} (hne : ms ≠ []) (hq : ∀ m ∈ ms, m.orientation.normSq ≠ 0) :
    ∃ T, trajectoryOf io c τ (columnsOf ms) = .ok T ∧ Holds io ms T ∧
      T.name = if τ = "" then "Trajectory " ++ toString c else τ := by
  have h3 : ∀ f g h : Msg K → K, cols3 (ms.map f) (ms.map g) (ms.map h) = .ok (ms.map (fun m => ⟨f m, g m, h m⟩)) := by
    intro f g h
    simp [cols3, List.zip_map', List.map_map, Function.comp_def]
  obtain ⟨rs, hrs, hfa⟩ : ∃ rs, mapE io.fromQuat (ms.map (fun m => m.orientation)) = .ok rs ∧
      List.Forall₂ (fun (m : Msg K) r => io.rot.toMat r = quatMat m.orientation) ms rs := by
    clear h3 hne
    induction ms with
    | nil => exact ⟨[], rfl, .nil⟩
    | cons m ms ih =>
      obtain ⟨r, hr, hrm⟩ := hio.fromQuat _ (hq m (by simp))
      obtain ⟨rs, hrs, hfa⟩ := ih (fun m hm => hq m (by simp [hm]))
      exact ⟨r :: rs, mapE_cons hr hrs, .cons hrm hfa⟩
  have hz : (ms.map (fun m => (⟨m.orientation.x, m.orientation.y, m.orientation.z⟩ : V3 K))).zip
      (ms.map (fun m => m.orientation.w)) = ms.map (fun m => (⟨m.orientation.x, m.orientation.y, m.orientation.z⟩, m.orientation.w)) := by
    rw [List.zip_map']
  have hts : ms.map (fun m => (m.sec : K) + (m.nanosec : K) * (1 / 10 ^ 9)) = ms.map time := by
    apply List.map_congr_left
    intro m _
    simp only [time]
    norm_num
    ring
  obtain ⟨T, hT, hco, hpos, hrot, htst, -, -, harc, hsort, heps⟩ := new_eq (R := R) io.nrm c
    { pos := ms.map (fun m => m.position), rot := some rs, tstamps := some (ms.map time), name := τ }
    (by rintro r ⟨⟩; simp [hfa.length_eq]) (by simpa using hne) (by rintro t ⟨⟩; simp)
  refine ⟨T, ?_, ⟨hco, by simpa using htst, hpos, ⟨rs, hrot, hfa⟩, harc (by simp), hsort, heps⟩, new_name hT⟩
  have hlen : ms.length ≠ 0 := by simpa using hne
  rw [← hT, ← hts]
  unfold trajectoryOf
  simp [column, columnsOf, h3, hz, List.map_map, Function.comp_def, hrs, hlen, bind, Except.bind, pure, Except.pure]

theorem trajectoriesOf_topics [IsStrictOrderedRing K] {io : IoLib K R} (hio : IsIoLib io) (f : String → List (Msg K))
    (l : List String) (hne : ∀ τ ∈ l, f τ ≠ []) (hq : ∀ τ ∈ l, ∀ m ∈ f τ, m.orientation.normSq ≠ 0) (c : Nat) :
    ∃ Ts, trajectoriesOf io c (l.map (fun τ => (τ, columnsOf (f τ)))) = .ok Ts ∧
      List.Forall₂ (fun τ T => Holds io (f τ) T ∧ (τ ≠ "" → T.name = τ)) l Ts := by
  induction l generalizing c with
  | nil => exact ⟨[], rfl, .nil⟩
  | cons τ l ih =>
    obtain ⟨T, hT, hh, hn⟩ := trajectoryOf_columns hio c τ (hne τ (by simp)) (hq τ (by simp))
    obtain ⟨Ts, hTs, hfa⟩ := ih (fun τ h => hne τ (by simp [h])) (fun τ h => hq τ (by simp [h])) (c + 1)
    refine ⟨T :: Ts, ?_, .cons ⟨hh, fun h => by rw [hn, if_neg h]⟩ hfa⟩
    simp only [List.map_cons, trajectoriesOf, hT, hTs, bind, Except.bind, pure, Except.pure]

/-- **C93**: whatever the messages of a bag and however the topics interleave, importing it gives one trajectory
per topic with poses, in order of the first pose of each topic, no topic twice; the trajectory of a topic
holds exactly the poses of that topic in message order and carries its name.  Other messages have no influence.
The poses must have orientations, `Rotation.from_quat` rejects zero quaternions. -/
theorem C93_one_trajectory_per_topic [IsStrictOrderedRing K] {io : IoLib K R} (hio : IsIoLib io) (c : Nat)
    (ms : List (Msg K)) (hq : ∀ m ∈ poses ms, m.orientation.normSq ≠ 0) :
    (topics ms).Nodup ∧ (∀ τ, τ ∈ topics ms ↔ ∃ m ∈ poses ms, m.topic = τ) ∧
      ∃ Ts, fromRosbag io c ms = .ok Ts ∧
        List.Forall₂ (fun τ T => Holds io (posesOf τ ms) T ∧ (τ ≠ "" → T.name = τ)) (topics ms) Ts := by
  obtain ⟨hn, he⟩ := readBag_eq ms
  have hmem : ∀ τ, τ ∈ topics ms ↔ ∃ m ∈ poses ms, m.topic = τ := fun τ => by
    simp [topics, List.mem_eraseDups]
  refine ⟨hn, hmem, ?_⟩
  unfold fromRosbag
  rw [he]
  refine trajectoriesOf_topics hio _ _ ?_ ?_ c
  · intro τ hτ
    obtain ⟨m, hm, rfl⟩ := (hmem τ).mp hτ
    exact List.ne_nil_of_mem (List.mem_filter.mpr ⟨hm, by simp⟩)
  · intro τ _ m hm
    exact hq m (List.mem_filter.mp hm).1

/-- a single invalid pose in any topic makes the whole import fail -/
theorem mapE_error {α β : Type} {f : α → Except Err β} {l : List α} {a : α} (ha : a ∈ l)
    (he : f a = .error .valueError) (hall : ∀ b ∈ l, (∃ r, f b = .ok r) ∨ f b = .error .valueError) :
    mapE f l = .error .valueError := by
  induction l with
  | nil => simp at ha
  | cons b l ih =>
    rcases hall b (by simp) with ⟨r, hr⟩ | hr
    · rcases List.mem_cons.mp ha with rfl | ha
      · rw [he] at hr; cases hr
      · simp only [mapE, hr, ih ha (fun b h => hall b (by simp [h]))]; rfl
    · simp only [mapE, hr]; rfl

/-- **C93**, zero quaternions: if the orientation of one pose, of whatever topic, is the zero quaternion, the import
of the whole bag raises `ValueError`. -/
theorem C93_invalid_pose_rejects_bag [IsStrictOrderedRing K] {io : IoLib K R} (hio : IsIoLib io) (c : Nat)
    (ms : List (Msg K)) {m : Msg K} (hm : m ∈ poses ms) (hq : m.orientation.normSq = 0) :
    fromRosbag io c ms = .error .valueError := by
  obtain ⟨-, he⟩ := readBag_eq ms
  have hmem : ∀ τ, τ ∈ topics ms ↔ ∃ m ∈ poses ms, m.topic = τ := fun τ => by
    simp [topics, List.mem_eraseDups]
  have key : ∀ (l : List String) (c : Nat), (∀ τ ∈ l, posesOf τ ms ≠ []) → m.topic ∈ l →
      trajectoriesOf io c (l.map (fun τ => (τ, columnsOf (posesOf τ ms)))) = .error .valueError := by
    intro l
    induction l with
    | nil => intro c _ h; simp at h
    | cons τ l ih =>
      intro c hl h
      simp only [List.map_cons, trajectoriesOf]
      by_cases hall : ∀ m ∈ posesOf τ ms, m.orientation.normSq ≠ 0
      · obtain ⟨T, hT, -, -⟩ := trajectoryOf_columns hio c τ (hl τ (by simp)) hall
        have hτ : m.topic ≠ τ := by
          rintro rfl
          exact hall m (List.mem_filter.mpr ⟨hm, by simp⟩) hq
        simp only [hT, ih (c + 1) (fun τ h => hl τ (by simp [h])) ((List.mem_cons.mp h).resolve_left hτ), bind,
          Except.bind]
      · push Not at hall
        obtain ⟨b, hb, hb0⟩ := hall
        have hme : mapE io.fromQuat ((posesOf τ ms).map (fun m => m.orientation)) = .error .valueError := by
          refine mapE_error (List.mem_map_of_mem hb) (hio.zero _ hb0) ?_
          intro q _
          by_cases h0 : q.normSq = 0
          · exact .inr (hio.zero q h0)
          · obtain ⟨r, hr, -⟩ := hio.fromQuat q h0
            exact .inl ⟨r, hr⟩
        have h3 : ∀ (l : List (Msg K)) (f g h : Msg K → K),
            cols3 (l.map f) (l.map g) (l.map h) = .ok (l.map (fun m => ⟨f m, g m, h m⟩)) := by
          intro l f g h
          simp [cols3, List.zip_map', List.map_map, Function.comp_def]
        have hne := hl τ (by simp)
        have : trajectoryOf io c τ (columnsOf (posesOf τ ms)) = .error .valueError := by
          unfold trajectoryOf
          simp [column, columnsOf, h3, List.zip_map', List.map_map, Function.comp_def, hme, bind, Except.bind, hne]
        simp only [this, bind, Except.bind]
  unfold fromRosbag
  rw [he]
  refine key _ c ?_ ((hmem _).mpr ⟨m, hm, rfl⟩)
  intro τ hτ
  obtain ⟨m', hm', rfl⟩ := (hmem τ).mp hτ
  exact List.ne_nil_of_mem (List.mem_filter.mpr ⟨hm', by simp⟩)

/-- two interleaved topics with poses and a message of another kind -/
def exBag : List (Msg ℚ) :=
  let p := "geometry_msgs/msg/PoseStamped"
  [⟨"/b", p, 10, 500000000, ⟨1, 2, 3⟩, ⟨0, 0, 0, 1⟩⟩, ⟨"/imu", "sensor_msgs/msg/Imu", 10, 0, ⟨0, 0, 0⟩, ⟨0, 0, 0, 0⟩⟩,
   ⟨"/a", p, 11, 0, ⟨4, 5, 6⟩, ⟨1, 0, 0, 0⟩⟩, ⟨"/b", p, 11, 250000000, ⟨7, 8, 9⟩, ⟨0, 1, 0, 0⟩⟩]

example : topics exBag = ["/b", "/a"] ∧ (∀ m ∈ poses exBag, m.orientation.normSq ≠ 0) ∧
    ((fromRosbag ratIo 1 exBag).toOption.map (fun Ts => Ts.map (fun T => (T.name, T.tstamps, T.pos)))) =
      some [("/b", [21 / 2, 45 / 4], [⟨1, 2, 3⟩, ⟨7, 8, 9⟩]), ("/a", [11], [⟨4, 5, 6⟩])] := by
  refine ⟨by decide +kernel, ?_, by decide +kernel⟩
  simp [poses, exBag, Q4.normSq]

end Ros
end TC
