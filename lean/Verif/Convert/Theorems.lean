import Verif.Convert.Spec
/-
C107: what is sent to the sensor simulator and back arrives as it was sent.
-/
namespace Verif.Convert
variable {D : Type}

/-! ### The parts -/

theorem toProtoPoint_same (m : Msg.Point D) (o : Proto.Point D) : SamePoint m (toProtoPoint m o) := ⟨rfl, rfl, rfl⟩
theorem toMsgPoint_same (p : Proto.Point D) (o : Msg.Point D) : SamePoint (toMsgPoint p o) p := ⟨rfl, rfl, rfl⟩
theorem toProtoVector3_same (m : Msg.Vector3 D) (o : Proto.Vector3 D) : SameVector m (toProtoVector3 m o) := ⟨rfl, rfl, rfl⟩
theorem toMsgVector3_same (p : Proto.Vector3 D) (o : Msg.Vector3 D) : SameVector (toMsgVector3 p o) p := ⟨rfl, rfl, rfl⟩
theorem toProtoBox_same (m : Msg.BoundingBox D) (o : Proto.BoundingBox D) : SameBox m (toProtoBoundingBox m o) :=
  ⟨toProtoPoint_same _ o.center, toProtoVector3_same _ o.dimensions⟩
theorem toMsgBox_same (p : Proto.BoundingBox D) (o : Msg.BoundingBox D) : SameBox (toMsgBoundingBox p o) p :=
  ⟨toMsgPoint_same _ o.center, toMsgVector3_same _ o.dimensions⟩

theorem toProtoType_iff (m : UInt8) (p : Int32) : toProtoType m = some p ↔ SameType m p := by
  unfold SameType toProtoType
  constructor
  · intro h; split at h <;> cases h <;> decide
  · rintro (⟨rfl, rfl⟩ | ⟨rfl, rfl⟩ | ⟨rfl, rfl⟩ | ⟨rfl, rfl⟩) <;> rfl

theorem toMsgType_iff (m : UInt8) (p : Int32) : toMsgType p = some m ↔ SameType m p := by
  unfold SameType toMsgType
  constructor
  · intro h; split at h <;> cases h <;> decide
  · rintro (⟨rfl, rfl⟩ | ⟨rfl, rfl⟩ | ⟨rfl, rfl⟩ | ⟨rfl, rfl⟩) <;> rfl

theorem toProtoSubtype_iff (m : UInt8) (p : Int32) : toProtoSubtype m = some p ↔ SameSubtype m p := by
  unfold SameSubtype toProtoSubtype
  constructor
  · intro h; split at h <;> cases h <;> decide
  · rintro (⟨rfl, rfl⟩ | ⟨rfl, rfl⟩ | ⟨rfl, rfl⟩ | ⟨rfl, rfl⟩ | ⟨rfl, rfl⟩ | ⟨rfl, rfl⟩ | ⟨rfl, rfl⟩ | ⟨rfl, rfl⟩) <;> rfl

theorem toMsgSubtype_iff (m : UInt8) (p : Int32) : toMsgSubtype p = some m ↔ SameSubtype m p := by
  unfold SameSubtype toMsgSubtype
  constructor
  · intro h; split at h <;> cases h <;> decide
  · rintro (⟨rfl, rfl⟩ | ⟨rfl, rfl⟩ | ⟨rfl, rfl⟩ | ⟨rfl, rfl⟩ | ⟨rfl, rfl⟩ | ⟨rfl, rfl⟩ | ⟨rfl, rfl⟩ | ⟨rfl, rfl⟩) <;> rfl

/-! ### The property -/

/-- C107: a pose means the same after the conversion, whatever the target held, in both directions. -/
theorem C107_pose (m : Msg.Pose D) (p : Proto.Pose D) : SamePose m (toProtoPose m p) ∧ SamePose (toMsgPose p m) p :=
  ⟨⟨⟨rfl, rfl, rfl⟩, rfl, rfl, rfl, rfl⟩, ⟨rfl, rfl, rfl⟩, rfl, rfl, rfl, rfl⟩

/-- C107: the same for action statuses. -/
theorem C107_action (m : Msg.ActionStatus D) (p : Proto.ActionStatus D) :
    SameAction m (toProtoActionStatus m p) ∧ SameAction (toMsgActionStatus p m) p :=
  ⟨⟨rfl, ⟨rfl, rfl, rfl⟩, ⟨rfl, rfl, rfl⟩, ⟨rfl, rfl, rfl⟩, ⟨rfl, rfl, rfl⟩, rfl⟩,
   rfl, ⟨rfl, rfl, rfl⟩, ⟨rfl, rfl, rfl⟩, ⟨rfl, rfl, rfl⟩, ⟨rfl, rfl, rfl⟩, rfl⟩

/-- C107: the same for times, durations and clocks, and for headers. -/
theorem C107_time (t : Msg.Time) (t' : Proto.Time) (d : Msg.Duration) (d' : Proto.Duration) (c : Msg.Clock) (c' : Proto.Clock) (h : Msg.Header)
    (h' : Proto.Header) :
    (SameTime t (toProtoTime t t') ∧ SameTime (toMsgTime t' t) t') ∧
    (d.sec = (toProtoDuration d d').sec ∧ d.nanosec = (toProtoDuration d d').nanosec ∧
      (toMsgDuration d' d).sec = d'.sec ∧ (toMsgDuration d' d).nanosec = d'.nanosec) ∧
    (SameTime c.clock (toProtoClock c c').clock ∧ SameTime (toMsgClock c' c).clock c'.clock) ∧
    (h.frameId = (toProtoHeader h h').frameId ∧ SameTime h.stamp (toProtoHeader h h').stamp ∧
      (toMsgHeader h' h).frameId = h'.frameId ∧ SameTime (toMsgHeader h' h).stamp h'.stamp) :=
  ⟨⟨⟨rfl, rfl⟩, rfl, rfl⟩, ⟨rfl, rfl, rfl, rfl⟩, ⟨⟨rfl, rfl⟩, rfl, rfl⟩, rfl, ⟨rfl, rfl⟩, rfl, rfl, rfl⟩

/-- C107: a status can be converted exactly if its type and subtype are known, and then means the same, whatever the target held, in both
directions. -/
theorem C107_status (m : Msg.EntityStatus D) (p : Proto.EntityStatus D) :
    (∀ p', toProtoStatus m p = some p' → SameStatus m p') ∧ ((toProtoStatus m p).isSome = true ↔ (∃ t, SameType m.type t) ∧ ∃ s, SameSubtype m.subtype s) ∧
    (∀ m', toMsgStatus p m = some m' → SameStatus m' p) ∧
    ((toMsgStatus p m).isSome = true ↔ (∃ t, SameType t p.type) ∧ ∃ s, SameSubtype s p.subtype) := by
  refine ⟨fun p' h => ?_, ?_, fun m' h => ?_, ?_⟩
  · simp only [toProtoStatus, Option.bind_eq_bind, Option.bind_eq_some_iff, Option.pure_def, Option.some.injEq] at h
    obtain ⟨t, h1, s, h2, rfl⟩ := h
    exact ⟨(toProtoType_iff _ _).mp h1, (toProtoSubtype_iff _ _).mp h2, rfl, rfl, toProtoBox_same _ _, (C107_action _ _).1, (C107_pose _ _).1,
      ⟨rfl, rfl, rfl, ⟨rfl, rfl, rfl⟩⟩, rfl⟩
  · simp only [← toProtoType_iff, ← toProtoSubtype_iff, ← Option.isSome_iff_exists]
    unfold toProtoStatus
    cases toProtoType m.type <;> cases toProtoSubtype m.subtype <;> simp
  · simp only [toMsgStatus, Option.bind_eq_bind, Option.bind_eq_some_iff, Option.pure_def, Option.some.injEq] at h
    obtain ⟨t, h1, s, h2, rfl⟩ := h
    exact ⟨(toMsgType_iff _ _).mp h1, (toMsgSubtype_iff _ _).mp h2, rfl, rfl, toMsgBox_same _ _, (C107_action _ _).2, (C107_pose _ _).2,
      ⟨rfl, rfl, rfl, ⟨rfl, rfl, rfl⟩⟩, rfl⟩
  · simp only [← toMsgType_iff, ← toMsgSubtype_iff, ← Option.isSome_iff_exists]
    unfold toMsgStatus
    cases toMsgType p.type <;> cases toMsgSubtype p.subtype <;> simp

/-- C107: what an update sends means the same, and what is read from it means the same and has no lane. An answer to an update changes nothing but pose
and motion of an entity, and these to what was answered. -/
theorem C107_update (m : Msg.EntityStatus D) (p : Proto.ApiEntityStatus D) (box : Msg.BoundingBox D) (lane : Msg.LaneletPose D) :
    (∀ p', toApiStatus m p = some p' → SameApiStatus m p') ∧
    (∀ m', ofApiStatus box lane p m = some m' → SameApiStatus m' p ∧ m'.laneletPoseValid = false ∧ m'.boundingBox = box ∧ m'.laneletPose = lane) ∧
    SamePose (ofAnswer p m).pose p.pose ∧ SameAction (ofAnswer p m).actionStatus p.actionStatus ∧
    { ofAnswer p m with pose := m.pose, actionStatus := m.actionStatus } = m := by
  refine ⟨fun p' h => ?_, fun m' h => ?_, (C107_pose _ _).2, (C107_action _ _).2, rfl⟩
  · simp only [toApiStatus, Option.bind_eq_bind, Option.bind_eq_some_iff, Option.pure_def, Option.some.injEq] at h
    obtain ⟨t, h1, s, h2, rfl⟩ := h
    exact ⟨(toProtoType_iff _ _).mp h1, (toProtoSubtype_iff _ _).mp h2, rfl, rfl, (C107_action _ _).1, (C107_pose _ _).1⟩
  · simp only [ofApiStatus, Option.bind_eq_bind, Option.bind_eq_some_iff, Option.pure_def, Option.some.injEq] at h
    obtain ⟨t, h1, s, h2, rfl⟩ := h
    exact ⟨⟨(toMsgType_iff _ _).mp h1, (toMsgSubtype_iff _ _).mp h2, rfl, rfl, (C107_action _ _).2, (C107_pose _ _).2⟩, rfl, rfl, rfl⟩

/-- C107: the parameters of entities mean the same but for the subtype. Missing: the subtype, see `C107_subtype_violated`. -/
theorem C107_parameters_partial (m : Msg.VehicleParameters D) (p : Proto.VehicleParameters D) (n : Msg.ObjectParameters D) (q : Proto.ObjectParameters D) :
    SameVehicle m (toProtoVehicle m p) ∧ SameVehicle (toMsgVehicle p m) p ∧ SameObject n (toProtoObject n q) ∧ SameObject (toMsgObject q n) q :=
  ⟨⟨rfl, toProtoBox_same _ _, ⟨rfl, rfl, rfl, rfl, rfl⟩, ⟨rfl, rfl, rfl, rfl, rfl⟩, rfl, rfl, rfl, rfl, rfl⟩,
   ⟨rfl, toMsgBox_same _ _, ⟨rfl, rfl, rfl, rfl, rfl⟩, ⟨rfl, rfl, rfl, rfl, rfl⟩, rfl, rfl, rfl, rfl, rfl⟩,
   ⟨rfl, toProtoBox_same _ _⟩, rfl, toMsgBox_same _ _⟩

/-- C107 fails for the subtype of parameters: the message that arrives has the subtype its target had. -/
theorem C107_subtype_violated (m old : Msg.VehicleParameters D) (p : Proto.VehicleParameters D) (h : old.subtype = 0) (hm : m.subtype = 2) :
    (toMsgVehicle (toProtoVehicle m p) old).subtype ≠ m.subtype := by
  show old.subtype ≠ m.subtype
  rw [h, hm]; decide

/-- C107: trajectories mean the same. -/
theorem C107_trajectory (m : Msg.PolylineTrajectory D) (p : Proto.PolylineTrajectory D) (fm : Msg.Vertex D) (fp : Proto.Vertex D) :
    SameTrajectory m (protoTrajectory fp m) ∧ SameTrajectory (msgTrajectory fm p) p := by
  refine ⟨⟨rfl, rfl, rfl, rfl, ?_⟩, rfl, rfl, rfl, rfl, ?_⟩
  · show List.Forall₂ SameVertex m.vertices (m.vertices.map (protoVertex fp))
    induction m.vertices with
    | nil => exact .nil
    | cons a l ih => exact .cons ⟨rfl, (C107_pose _ _).1⟩ ih
  · show List.Forall₂ SameVertex (p.vertices.map (msgVertex fm)) p.vertices
    induction p.vertices with
    | nil => exact .nil
    | cons a l ih => exact .cons ⟨rfl, (C107_pose _ _).2⟩ ih

/-- C107: gears that exist arrive as they were sent. Missing: other numbers, see `C107_gear_violated`. -/
theorem C107_gear_partial (m old : Msg.GearCommand) (p : Proto.GearCommand) (h : m.command ≤ 24) :
    (toMsgGear (toProtoGear m p) old).command = m.command ∧ SameTime m.stamp (toProtoGear m p).stamp ∧ (toProtoGear m p).command.toInt = m.command.toNat := by
  have h0 : ∀ n : Fin 25, (UInt8.ofNat n).toNat.toInt32.toUInt32.toUInt8 = UInt8.ofNat n ∧ (UInt8.ofNat n).toNat.toInt32.toInt = (UInt8.ofNat n).toNat := by
    decide +kernel
  have h1 : ∀ c : UInt8, c ≤ 24 → (c.toNat.toInt32.toUInt32.toUInt8 = c ∧ c.toNat.toInt32.toInt = c.toNat) := by
    intro c hc
    have := h0 ⟨c.toNat, Nat.lt_succ_of_le hc⟩
    simpa using this
  simp only [toMsgGear, toProtoGear, if_pos h]
  exact ⟨(h1 _ h).1, ⟨rfl, rfl⟩, (h1 _ h).2⟩

/-- C107 fails for a gear that does not exist: instead of an error, the gear of an earlier message arrives. -/
theorem C107_gear_violated (t : Msg.Time) (t' : Proto.Time) (old : Msg.GearCommand) :
    (toMsgGear (toProtoGear ⟨t, 99⟩ ⟨t', 2⟩) old).command = 2 := rfl

/-- What is sent and read again is the same message: two messages that mean the same as one of the protocol are equal. -/
theorem C107_unique (m m' : Msg.EntityStatus D) (p : Proto.EntityStatus D) (h : SameStatus m p) (h' : SameStatus m' p) : m = m' := by
  obtain ⟨t, st, ti, n, ⟨bx, bd⟩, ⟨a1, a2, a3, a4, a5, a6⟩, ⟨p1, p2⟩, ⟨l1, l2, l3, l4⟩, v⟩ := h
  obtain ⟨t', st', ti', n', ⟨bx', bd'⟩, ⟨a1', a2', a3', a4', a5', a6'⟩, ⟨p1', p2'⟩, ⟨l1', l2', l3', l4'⟩, v'⟩ := h'
  have pt : ∀ {a b : Msg.Point D} {c : Proto.Point D}, SamePoint a c → SamePoint b c → a = b := by
    rintro ⟨_, _, _⟩ ⟨_, _, _⟩ _ ⟨h1, h2, h3⟩ ⟨g1, g2, g3⟩; simp_all
  have vt : ∀ {a b : Msg.Vector3 D} {c : Proto.Vector3 D}, SameVector a c → SameVector b c → a = b := by
    rintro ⟨_, _, _⟩ ⟨_, _, _⟩ _ ⟨h1, h2, h3⟩ ⟨g1, g2, g3⟩; simp_all
  have e1 : m.type = m'.type := Option.some.inj (((toMsgType_iff _ _).mpr t).symm.trans ((toMsgType_iff _ _).mpr t'))
  have e2 : m.subtype = m'.subtype := Option.some.inj (((toMsgSubtype_iff _ _).mpr st).symm.trans ((toMsgSubtype_iff _ _).mpr st'))
  obtain ⟨_, _, _, _, ⟨_, _⟩, ⟨_, ⟨_, _⟩, ⟨_, _⟩, _⟩, ⟨_, ⟨_, _, _, _⟩⟩, ⟨_, _, _, _⟩, _⟩ := m
  obtain ⟨_, _, _, _, ⟨_, _⟩, ⟨_, ⟨_, _⟩, ⟨_, _⟩, _⟩, ⟨_, ⟨_, _, _, _⟩⟩, ⟨_, _, _, _⟩, _⟩ := m'
  simp only at *
  have := pt bx bx'; have := vt bd bd'; have := vt a2 a2'; have := vt a3 a3'; have := vt a4 a4'; have := vt a5 a5'; have := pt p1 p1'; have := vt l4 l4'
  obtain ⟨q1, q2, q3, q4⟩ := p2
  obtain ⟨r1, r2, r3, r4⟩ := p2'
  simp_all

/-- A status of a truck, sent and read. -/
example : ((toProtoStatus (D := Nat)
      ⟨1, 2, 3, "t", ⟨⟨1, 2, 3⟩, ⟨4, 5, 6⟩⟩, ⟨"a", ⟨⟨1, 2, 3⟩, ⟨4, 5, 6⟩⟩, ⟨⟨7, 8, 9⟩, ⟨1, 2, 3⟩⟩, 9⟩, ⟨⟨1, 2, 3⟩, ⟨0, 0, 0, 1⟩⟩, ⟨7, 1, 2, ⟨1, 2, 3⟩⟩, true⟩
      ⟨0, 0, 0, "", ⟨⟨0, 0, 0⟩, ⟨0, 0, 0⟩⟩, ⟨"", ⟨⟨0, 0, 0⟩, ⟨0, 0, 0⟩⟩, ⟨⟨0, 0, 0⟩, ⟨0, 0, 0⟩⟩, 0⟩, ⟨⟨0, 0, 0⟩, ⟨0, 0, 0, 0⟩⟩, ⟨0, 0, 0, ⟨0, 0, 0⟩⟩, false⟩).map
      fun p => (p.type, p.subtype, p.name, p.pose.orientation.w)) = some (1, 2, "t", 1) := rfl

end Verif.Convert
