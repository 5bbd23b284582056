import Verif.Model.Names
import Verif.Props.Columns
import Std.Data.String.ToNat
/-!
# Default names of trajectories: C174
-/
namespace TC
set_option linter.unusedSectionVars false
variable {K R : Type} [Field K] [LinearOrder K] [IsStrictOrderedRing K]

theorem new_name {nrm : V3 K → K} {c : Nat} {a : TrajArgs K R} {T : Traj K R} (h : Traj.new nrm c a = .ok T) :
    T.name = if a.name = "" then "Trajectory " ++ toString c else a.name := by
  unfold Traj.new at h
  simp only [bind, Except.bind, pure, Except.pure, throw, throwThe, MonadExceptOf.throw] at h
  obtain ⟨pos, epsg, rot, tst, name, arc, speed, srt⟩ := a
  cases rot <;> cases tst <;> cases arc <;> cases speed <;> simp only at h <;> (repeat' split at h) <;>
    first
      | (cases h; done)
      | (cases h; simp_all)

/-- the number of trajectories constructed by the first `i` statements -/
def constructed (nrm : V3 K → K) (calls : List (TrajArgs K R)) (c i : Nat) : Nat :=
  ((Traj.session nrm calls c).take i).countP (fun r => match r with | .ok _ => true | .error _ => false)

theorem session_name {nrm : V3 K → K} (calls : List (TrajArgs K R)) : ∀ (c i : Nat) {a : TrajArgs K R} {T : Traj K R},
    calls[i]? = some a → (Traj.session nrm calls c)[i]? = some (.ok T) →
    T.name = if a.name = "" then "Trajectory " ++ toString (c + constructed nrm calls c i) else a.name := by
  induction calls with
  | nil => intro c i a T ha; cases ha
  | cons b rest ih =>
    intro c i a T ha hT
    cases i with
    | zero =>
      cases ha
      simp only [Traj.session, List.getElem?_cons_zero, Option.some.injEq] at hT
      unfold Traj.construct at hT
      cases hn : Traj.new nrm c b with
      | error e => rw [hn] at hT; cases hT
      | ok T' =>
        rw [hn] at hT
        cases hT
        simpa [constructed] using new_name hn
    | succ i =>
      simp only [List.getElem?_cons_succ] at ha
      simp only [Traj.session, List.getElem?_cons_succ] at hT
      rw [ih _ i ha hT]
      have : (Traj.construct nrm b c).2 + constructed nrm rest (Traj.construct nrm b c).2 i =
          c + constructed nrm (b :: rest) c (i + 1) := by
        unfold constructed
        simp only [Traj.session, List.take_succ_cons, List.countP_cons]
        unfold Traj.construct
        cases hn : Traj.new nrm c b with
        | error e => simp
        | ok T' => simp; omega
      rw [this]

theorem constructed_lt {nrm : V3 K → K} {calls : List (TrajArgs K R)} {c i j : Nat} (hij : i < j) {T : Traj K R}
    (hT : (Traj.session nrm calls c)[i]? = some (.ok T)) : constructed nrm calls c i < constructed nrm calls c j := by
  unfold constructed
  generalize Traj.session nrm calls c = l at hT ⊢
  obtain ⟨k, rfl⟩ := Nat.exists_eq_add_of_lt hij
  have e : l.take (i + k + 1) = l.take i ++ (l.drop i).take (k + 1) := by
    rw [← List.take_add]; congr 1
  rw [e, List.countP_append]
  have hd : l.drop i = .ok T :: l.drop (i + 1) := by
    have hlt := (List.getElem?_eq_some_iff.1 hT).1
    rw [List.drop_eq_getElem_cons hlt]
    rw [(List.getElem?_eq_some_iff.1 hT).2]
  rw [hd, List.take_succ_cons, List.countP_cons]
  simp

/-- **C174**: two trajectories constructed without a name have different names, however many trajectories with and
without names were constructed or failed to be constructed before, between and after them. -/
theorem C174_default_names (nrm : V3 K → K) (calls : List (TrajArgs K R)) (c : Nat) {i j : Nat} (hij : i ≠ j)
    {a b : TrajArgs K R} {T U : Traj K R} (ha : calls[i]? = some a) (hb : calls[j]? = some b)
    (hna : a.name = "") (hnb : b.name = "") (hT : (Traj.session nrm calls c)[i]? = some (.ok T))
    (hU : (Traj.session nrm calls c)[j]? = some (.ok U)) : T.name ≠ U.name := by
  have h1 := session_name calls c i ha hT
  have h2 := session_name calls c j hb hU
  rw [if_pos hna] at h1
  rw [if_pos hnb] at h2
  rw [h1, h2]
  intro h
  have h' : c + constructed nrm calls c i = c + constructed nrm calls c j :=
    Nat.repr_injective ((String.append_right_inj _).mp h)
  rcases Nat.lt_or_gt_of_ne hij with hlt | hlt
  · have := constructed_lt hlt hT; omega
  · have := constructed_lt hlt hU; omega

/-- **C174**: a trajectory constructed with a name has this name. -/
theorem C174_given_name (nrm : V3 K → K) (calls : List (TrajArgs K R)) (c : Nat) {i : Nat} {a : TrajArgs K R}
    {T : Traj K R} (ha : calls[i]? = some a) (hna : a.name ≠ "")
    (hT : (Traj.session nrm calls c)[i]? = some (.ok T)) : T.name = a.name := by
  rw [session_name calls c i ha hT, if_neg hna]

/-- **C174**: the number in a default name counts the trajectories constructed before, named or not, without the
failed ones. -/
theorem C174_numbered (nrm : V3 K → K) (calls : List (TrajArgs K R)) (c : Nat) {i : Nat} {a : TrajArgs K R}
    {T : Traj K R} (ha : calls[i]? = some a) (hna : a.name = "")
    (hT : (Traj.session nrm calls c)[i]? = some (.ok T)) :
    T.name = "Trajectory " ++ toString (c + ((Traj.session nrm calls c).take i).countP
      (fun r => match r with | .ok _ => true | .error _ => false)) := by
  rw [session_name calls c i ha hT, if_pos hna]
  rfl

/-- three constructions, the second of which fails: the positions and orientations do not match -/
def exCalls : List (TrajArgs ℚ Nat) :=
  [{ pos := [⟨0, 0, 0⟩, ⟨1, 0, 0⟩] }, { pos := [⟨0, 0, 0⟩], rot := some [1, 2] }, { pos := [⟨0, 0, 0⟩, ⟨1, 0, 0⟩], name := "mine" },
    { pos := [⟨0, 0, 0⟩, ⟨2, 0, 0⟩] }]

example : (Traj.session (fun v => |v.x|) exCalls 1).map (fun r => r.toOption.map Traj.name) =
    [some "Trajectory 1", none, some "mine", some "Trajectory 3"] := by decide +kernel

/-- a given name may be the default name of another trajectory -/
example : (Traj.session (R := Nat) (fun v : V3 ℚ => |v.x|) [{ pos := [⟨0, 0, 0⟩, ⟨1, 0, 0⟩], name := "Trajectory 2" },
    { pos := [⟨0, 0, 0⟩, ⟨2, 0, 0⟩] }] 1).map (fun r => r.toOption.map Traj.name) =
    [some "Trajectory 2", some "Trajectory 2"] := by decide +kernel

end TC
