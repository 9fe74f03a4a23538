import Verif.Place.Spec
import Mathlib.Tactic.LinearCombination
import Mathlib.Tactic.NormNum
import Mathlib.Tactic.Ring
import Mathlib.Data.Rat.Defs
import Mathlib.Algebra.Field.Rat
/-
C150: an entity is put where the scenario says.  C151: the parts of the status of an entity agree.
-/
namespace Verif.Place
open Spec
variable {K I L A : Type}

theorem toCanonical_some [DecidableEq L] {m : Map K I L} (h : Lawful m) {l l' : L} (e : toCanonical m l = some l') : m.canon l' = some l' := by
  unfold toCanonical at e
  split at e
  · cases e
  · exact h.again _ _ e

theorem toCanonical_again [DecidableEq L] {m : Map K I L} (h : Lawful m) {l : L} (e : m.canon l = some l) : toCanonical m l = some l := by
  unfold toCanonical
  rw [if_neg (h.blank _ _ e), e]

theorem make_sound {m : Map K I L} (raw : Raw K L A) (o : Option L) (h : ∀ l, o = some l → m.canon l = some l) : Sound m (make m raw o) := by
  cases o with
  | none => exact ⟨by simp [make], fun _ => rfl, fun l e => by simp [make] at e⟩
  | some l => exact ⟨by simp [make], fun e => by simp [make] at e, fun l' e => by simp only [make, Option.some.injEq] at e; subst e; exact ⟨rfl, h _ rfl, rfl, rfl⟩⟩

theorem make_placed {m : Map K I L} (raw : Raw K L A) (o : Option L) : Placed m raw.pose o (make m raw o) := by
  cases o with
  | none => exact ⟨rfl, rfl, rfl, fun l e => (by cases e), fun _ => rfl⟩
  | some l => exact ⟨rfl, rfl, rfl, fun l' e => (by cases e; exact ⟨rfl, rfl⟩), fun e => (by cases e)⟩

theorem locate_canon [DecidableEq L] {m : Map K I L} (h : Lawful m) {ids : List I} {c : Bool} {p : Pose K} {l : L} (e : locate m ids c p = some l) : m.canon l = some l := by
  unfold locate at e
  rw [Option.bind_eq_some_iff] at e
  obtain ⟨l', -, e⟩ := e
  exact toCanonical_some h e

theorem set_sound [DecidableEq L] {m : Map K I L} (h : Lawful m) (c : Bool) (raw : Raw K L A) (ids : List I) : Sound m (set m c raw ids) := by
  apply make_sound
  intro l e
  split at e
  · exact toCanonical_some h e
  · exact locate_canon h e

theorem matched_iff [DecidableEq L] {m : Map K I L} {c : Bool} {p : Pose K} {o : Option L} (h : Matched m c p o) : (m.near c p).bind (toCanonical m) = o := by
  obtain ⟨h, rfl⟩ | ⟨l, h, ⟨rfl, rfl⟩ | ⟨hl, rfl⟩⟩ := h
  · rw [h]; rfl
  · rw [h]; simp [toCanonical]
  · rw [h]; simp [toCanonical, hl]

/-- C150: an entity put on a lane is there, with the pose of the lane, and stands still; what is no pose on a lane is refused. -/
theorem C150_lane [DecidableEq L] [Mul K] [Add K] [Sub K] (m : Map K I L) (c : Bool) (still : A) (s : Status K L A) (l : L) :
    (∀ l', m.canon l = some l' → ∃ s', teleport m c still s (.lane l) = .ok s' ∧ s'.pose = m.toMap l' ∧ s'.canonical = some l' ∧ s'.lane = l' ∧ s'.valid = true ∧ s'.action = still) ∧
    (m.canon l = none → teleport m c still s (.lane l) = .error .thrown) := by
  constructor
  · intro l' h
    refine ⟨setCanonical m s l' still, by simp only [teleport, h], rfl, rfl, rfl, rfl, rfl⟩
  · intro h
    simp only [teleport, h]

/-- C150 for an entity that is off the lanes: a teleport to a pose in the world puts it at that point, on the lane that is there, if any, and it stands still.
Missing: an entity that is on a lane, see `C150_world_violated`. -/
theorem C150_world_partial [DecidableEq L] [Mul K] [Add K] [Sub K] (m : Map K I L) (c : Bool) (still : A) (s : Status K L A) (hs : Sound m s) (off : s.canonical = none)
    (p : Pose K) (o : Option L) (ho : Matched m c p o) : ∃ s', teleport m c still s (.world p) = .ok s' ∧ Placed m p o s' ∧ s'.action = still := by
  have hv : s.valid = false := by
    cases h : s.valid with
    | false => rfl
    | true => exact absurd off (hs.1.1 h)
  refine ⟨setPose m c s p still, rfl, ?_, ?_⟩
  · have : setPose m c s p still = make m { s.toRaw with pose := p, action := still } o := by
      unfold setPose set locate laneletIds
      simp only [hv, off, List.isEmpty_nil, if_true, Option.none_or, matched_iff ho, Bool.false_eq_true, if_false]
    rw [this]
    exact make_placed _ _
  · unfold setPose set
    rw [hv]
    show (make m _ (locate m _ c p)).action = still
    cases locate m (laneletIds m s) c p <;> rfl

/-- An entity on a lane that is teleported to a pose in the world stays on its old lane, whatever the new pose is: only `x` and `y` are taken over, the height and the heading are those of the old pose on the lane. -/
theorem C150_world_keeps_lane [DecidableEq L] [Mul K] [Add K] [Sub K] (m : Map K I L) (hm : Lawful m) (c : Bool) (still : A) (s : Status K L A) (hs : Sound m s) (l : L) (on : s.canonical = some l)
    (p : Pose K) : ∃ s', teleport m c still s (.world p) = .ok s' ∧ s'.canonical = some l ∧ s'.pose = ⟨p.x, p.y, (m.toMap l).z, (m.toMap l).turn⟩ ∧ s'.action = still := by
  have hv : s.valid = true := hs.1.2 (by rw [on]; simp)
  obtain ⟨hl, hc, -, -⟩ := hs.2.2 l on
  have : setPose m c s p still = make m { s.toRaw with pose := p, action := still } (some l) := by
    unfold setPose set
    simp only [hv, hl, toCanonical_again hm hc, if_true]
  exact ⟨setPose m c s p still, rfl, by rw [this]; rfl, by rw [this]; rfl, by rw [this]; rfl⟩

/-- A small map for examples: poses on lanes are pairs of a lanelet and a distance; lanelet 1 runs along the first axis from 0 to 10, lanelet 2 from the point (100, 0) up to (100, 10). -/
def town : Map ℚ Nat (Nat × ℚ) where
  lanelet := Prod.fst
  blank := (0, 0)
  canon l := if (l.1 = 1 ∨ l.1 = 2) ∧ 0 ≤ l.2 ∧ l.2 ≤ 10 then some l else none
  toMap l := if l.1 = 1 then ⟨l.2, 0, 3, ⟨1, 0⟩⟩ else ⟨100, l.2, 5, ⟨0, 1⟩⟩
  on ids p := if 1 ∈ ids ∧ p.y = 0 ∧ 0 ≤ p.x ∧ p.x ≤ 10 then some (1, p.x) else none
  near _ p := if p.y = 0 ∧ 0 ≤ p.x ∧ p.x ≤ 10 then some (1, p.x) else if p.x = 100 ∧ 0 ≤ p.y ∧ p.y ≤ 10 then some (2, p.y) else none
  plain p := if p.y = 0 ∧ 0 ≤ p.x ∧ p.x ≤ 10 then some (1, p.x) else if p.x = 100 ∧ 0 ≤ p.y ∧ p.y ≤ 10 then some (2, p.y) else none

theorem town_lawful : Lawful town := by
  constructor
  · intro l l' h
    simp only [town] at h
    split at h
    · cases h; simp only [town]; rename_i h; rw [if_pos h]
    · cases h
  · rintro l l' h rfl
    simp only [town] at h
    split at h
    · rename_i h'; cases h; simp at h'
    · cases h

/-- On lanelet 1, at 4. -/
def here : Status ℚ (Nat × ℚ) Nat := ⟨⟨⟨4, 0, 3, ⟨1, 0⟩⟩, true, (1, 4), 7⟩, some (1, 4)⟩
/-- Off the lanes. -/
def away : Status ℚ (Nat × ℚ) Nat := ⟨⟨⟨50, 50, 1, ⟨0, 1⟩⟩, false, (0, 0), 7⟩, none⟩

theorem here_sound : Sound town here := by
  refine ⟨by simp [here], by simp [here], ?_⟩
  intro l h
  cases h
  decide +kernel
theorem away_sound : Sound town away := ⟨by simp [away], fun _ => rfl, fun l h => by cases h⟩

example : ∃ s', teleport town false 0 away (.lane (2, 5)) = .ok s' ∧ s'.pose = ⟨100, 5, 5, ⟨0, 1⟩⟩ ∧ s'.canonical = some (2, 5) := by
  obtain ⟨s', h, a, b, -⟩ := (C150_lane town false 0 away (2, 5)).1 (2, 5) (by decide +kernel)
  exact ⟨s', h, a.trans (by decide +kernel), b⟩
example : teleport town false 0 away (.lane (2, 50)) = .error .thrown := (C150_lane town false 0 away (2, 50)).2 (by decide +kernel)
example : ∃ s', teleport town false 0 away (.world ⟨100, 5, 0, ⟨1, 0⟩⟩) = .ok s' ∧ Placed town ⟨100, 5, 0, ⟨1, 0⟩⟩ (some (2, 5)) s' ∧ s'.action = 0 :=
  C150_world_partial town false 0 away away_sound rfl _ _ (Or.inr ⟨(2, 5), by decide +kernel, Or.inr ⟨by decide +kernel, by decide +kernel⟩⟩)

/-- C150 fails for an entity that is on a lane: put onto lanelet 2 by a pose in the world, it is said to be on lanelet 1, where it was, 96 m away, with the height and the heading of lanelet 1. -/
theorem C150_world_violated :
    ∃ (p : Pose ℚ) (s' : Status ℚ (Nat × ℚ) Nat), Lawful town ∧ Sound town here ∧ Matched town false p (some (2, 5)) ∧ teleport town false 0 here (.world p) = .ok s' ∧
      s'.canonical = some (1, 4) ∧ s'.pose.z ≠ p.z ∧ s'.pose.turn ≠ p.turn ∧ ¬ Placed town p (some (2, 5)) s' := by
  obtain ⟨s', h, a, b, -⟩ := C150_world_keeps_lane town town_lawful false 0 here here_sound (1, 4) rfl ⟨100, 5, 5, ⟨0, 1⟩⟩
  refine ⟨⟨100, 5, 5, ⟨0, 1⟩⟩, s', town_lawful, here_sound, Or.inr ⟨(2, 5), by decide +kernel, Or.inr ⟨by decide +kernel, by decide +kernel⟩⟩, h, a, ?_, ?_, ?_⟩
  · rw [b]; decide +kernel
  · rw [b]; decide +kernel
  · rintro ⟨-, -, h, -⟩
    rw [a] at h
    exact absurd h (by decide +kernel)

section field
variable [Field K]

theorem mul_seen (r : Pose K) (hr : Direction r.turn) (dx dy dz : K) (o : Turn K) : Seen r (r.mul ⟨dx, dy, dz, o⟩) dx dy dz := by
  unfold Direction at hr
  refine ⟨?_, ?_, ?_⟩ <;> simp only [Pose.mul]
  · linear_combination dx * hr
  · linear_combination dy * hr
  · ring

theorem mul_turned (r : Pose K) (hr : Direction r.turn) (dx dy dz : K) (o : Turn K) : Turned r.turn (r.mul ⟨dx, dy, dz, o⟩).turn o := by
  unfold Direction at hr
  refine ⟨?_, ?_⟩ <;> simp only [Pose.mul, Turn.mul]
  · linear_combination o.c * hr
  · linear_combination o.s * hr

/-- C150 for a position relative to an entity, and an entity off the lanes: there is one pose that is seen from the reference as the scenario says, with the heading as seen from the reference, and the
entity is placed at it like at a pose in the world. Missing: an entity on a lane. -/
theorem C150_relative_partial [DecidableEq L] (m : Map K I L) (c : Bool) (still : A) (s : Status K L A) (hs : Sound m s) (off : s.canonical = none)
    (r : Pose K) (hr : Direction r.turn) (dx dy dz : K) (t : Turn K) :
    ∃ p, Seen r p dx dy dz ∧ Turned r.turn p.turn t ∧
      ∀ o, Matched m c p o → ∃ s', teleport m c still s (.relativeObject (some r) dx dy dz t) = .ok s' ∧ Placed m p o s' ∧ s'.action = still :=
  ⟨r.mul ⟨dx, dy, dz, t⟩, mul_seen r hr dx dy dz t, mul_turned r hr dx dy dz t, fun o ho => C150_world_partial m c still s hs off _ o ho⟩

/-- C150: a teleport relative to something that is not there is refused. -/
theorem C150_no_reference [DecidableEq L] (m : Map K I L) (c : Bool) (still : A) (s : Status K L A) (dx dy dz : K) (t : Turn K) :
    teleport m c still s (.relativeObject none dx dy dz t) = .error .thrown ∧ teleport m c still s (.relativeWorld none dx dy dz t) = .error .thrown := ⟨rfl, rfl⟩

omit [Field K] in
/-- C150: a pose on a lane that is not there is refused, any other is taken in its canonical form. -/
theorem C150_set_lane [DecidableEq L] (m : Map K I L) (s : Status K L A) (l : L) (a : A) (hb : l ≠ m.blank) :
    (∀ l', m.canon l = some l' → ∃ s', setLane m s l a = .ok s' ∧ s'.pose = m.toMap l' ∧ s'.canonical = some l' ∧ s'.lane = l' ∧ s'.valid = true ∧ s'.action = a) ∧
    (m.canon l = none → setLane m s l a = .error .thrown) ∧ setLane m s m.blank a = .error .thrown := by
  refine ⟨fun l' h => ⟨setCanonical m s l' a, ?_, rfl, rfl, rfl, rfl, rfl⟩, fun h => ?_, ?_⟩
  · simp only [setLane, toCanonical, if_neg hb, h]
  · simp only [setLane, toCanonical, if_neg hb, h]
  · simp only [setLane, toCanonical, if_true]

/-- C150: a position that is used as one on a lane is canonical, wherever it comes from; where no lane is it is an error. -/
theorem C150_to_lane [DecidableEq L] (m : Map K I L) (p : Pose K) (o : Option L)
    (ho : (m.plain p = none ∧ o = none) ∨ (∃ l, m.plain p = some l ∧ ((l = m.blank ∧ o = none) ∨ (l ≠ m.blank ∧ o = m.canon l)))) :
    (∀ l, o = some l → toLane m (.world p) = .ok l) ∧ (o = none → toLane m (.world p) = .error .thrown) := by
  have e : (m.plain p).bind (toCanonical m) = o := by
    rcases ho with ⟨h, rfl⟩ | ⟨l, h, ⟨rfl, rfl⟩ | ⟨hb, rfl⟩⟩
    · simp [h]
    · simp [h, toCanonical]
    · simp [h, toCanonical, hb]
  constructor
  · intro l hl
    simp only [toLane, toWorld, e, hl]
  · intro hl
    simp only [toLane, toWorld, e, hl]

/-- C150: an entity is added at a pose in the world, on the lane that is there, if any. -/
theorem C150_add_world [DecidableEq L] (m : Map K I L) (hm : Lawful m) (c : Bool) (still waiting : A) (p : Pose K) (o : Option L) (ho : Matched m c p o) :
    ∃ s', add m c still waiting (.world p) = .ok s' ∧ Placed m p o s' ∧ s'.action = still := by
  have e : add m c still waiting (.world p) = teleport m c still (spawnPose m c p waiting) (.world p) := rfl
  have hs : spawnPose m c p waiting = make m ⟨p, false, m.blank, waiting⟩ o := by unfold spawnPose; rw [matched_iff ho]
  rw [e, hs]
  have hc : ∀ l, o = some l → m.canon l = some l := by
    rintro l rfl
    obtain ⟨-, h⟩ | ⟨l', -, ⟨-, h⟩ | ⟨-, h⟩⟩ := ho
    · cases h
    · cases h
    · exact hm.again _ _ h.symm
  have hsound := make_sound (m := m) ⟨p, false, m.blank, waiting⟩ o hc
  cases o with
  | none => exact C150_world_partial m c still _ hsound rfl p none ho
  | some l =>
    obtain ⟨s', h, a, b, d⟩ := C150_world_keeps_lane m hm c still _ hsound l rfl p
    exact ⟨s', h, ⟨by rw [b], by rw [b], a, fun l' e => (by cases e; rw [b]; exact ⟨rfl, rfl⟩), fun e => (by cases e)⟩, d⟩

/-- C150: an entity is added on a lane, or refused if there is no such pose. -/
theorem C150_add_lane [DecidableEq L] (m : Map K I L) (c : Bool) (still waiting : A) (l : L) :
    (∀ l', m.canon l = some l' → ∃ s', add m c still waiting (.lane l) = .ok s' ∧ s'.pose = m.toMap l' ∧ s'.canonical = some l' ∧ s'.lane = l' ∧ s'.valid = true ∧ s'.action = still) ∧
    (m.canon l = none → add m c still waiting (.lane l) = .error .thrown) := by
  constructor
  · intro l' h
    obtain ⟨s', e, r⟩ := (C150_lane m c still (spawnLane m l' waiting) l).1 l' h
    refine ⟨s', ?_, r⟩
    rw [← e]
    simp only [add, h]
  · intro h
    simp only [add, h]

/-- No entity can be added at a `RelativeWorldPosition`, though it can be teleported there. -/
theorem C150_add_relative_world_violated [DecidableEq L] (m : Map K I L) (c : Bool) (still waiting : A) (r : Option (Pose K)) (dx dy dz : K) (t : Turn K) :
    add m c still waiting (.relativeWorld r dx dy dz t) = .error .thrown := rfl

/-- C150 for an entity added relative to another one where no lane is: it is there, with its heading. Missing: where a lane is, see `C150_add_relative_object_violated`. -/
theorem C150_add_relative_partial [DecidableEq L] (m : Map K I L) (c : Bool) (still waiting : A) (r : Pose K) (hr : Direction r.turn) (dx dy dz : K) (t : Turn K)
    (off : ∀ p, Seen r p dx dy dz → Matched m c p none) :
    ∃ s', add m c still waiting (.relativeObject (some r) dx dy dz t) = .ok s' ∧ Seen r s'.pose dx dy dz ∧ Turned r.turn s'.pose.turn t ∧ s'.canonical = none := by
  have e : add m c still waiting (.relativeObject (some r) dx dy dz t) =
    teleport m c still (spawnPose m c ⟨(r.transform dx dy dz).1, (r.transform dx dy dz).2.1, (r.transform dx dy dz).2.2, .one⟩ waiting) (.relativeObject (some r) dx dy dz t) := rfl
  have hseen : Seen r ⟨(r.transform dx dy dz).1, (r.transform dx dy dz).2.1, (r.transform dx dy dz).2.2, .one⟩ dx dy dz := by
    have := mul_seen r hr dx dy dz .one
    unfold Direction at hr
    refine ⟨?_, ?_, ?_⟩ <;> simp only [Pose.transform]
    · linear_combination dx * hr
    · linear_combination dy * hr
    · ring
  rw [e]
  have hs : spawnPose m c ⟨(r.transform dx dy dz).1, (r.transform dx dy dz).2.1, (r.transform dx dy dz).2.2, .one⟩ waiting =
      make m ⟨⟨(r.transform dx dy dz).1, (r.transform dx dy dz).2.1, (r.transform dx dy dz).2.2, .one⟩, false, m.blank, waiting⟩ none := by
    unfold spawnPose; rw [matched_iff (off _ hseen)]
  rw [hs]
  obtain ⟨s', h, hp, -⟩ := C150_world_partial m c still (make m ⟨⟨(r.transform dx dy dz).1, (r.transform dx dy dz).2.1, (r.transform dx dy dz).2.2, .one⟩, false, m.blank, waiting⟩ none)
    (make_sound _ _ (fun l e => by cases e)) rfl (r.mul ⟨dx, dy, dz, t⟩) none (off _ (mul_seen r hr dx dy dz t))
  refine ⟨s', h, ?_, ?_, hp.2.2.1⟩
  · rw [hp.2.2.2.2 rfl]; exact mul_seen r hr dx dy dz t
  · rw [hp.2.2.2.2 rfl]; exact mul_turned r hr dx dy dz t

end field

/-- A `RelativeWorldPosition` is along the axes of the world. It is taken along those of the reference: from a reference that is turned to the left, 10 m along the first axis of the world become 10 m along the second. -/
theorem C150_relative_world_violated :
    ∃ (r : Pose ℚ) (s' : Status ℚ (Nat × ℚ) Nat), Direction r.turn ∧ Sound town away ∧ teleport town false 0 away (.relativeWorld (some r) 10 0 0 .one) = .ok s' ∧
      ¬ SeenWorld r s'.pose 10 0 0 ∧ Seen r s'.pose 10 0 0 := by
  refine ⟨⟨50, 50, 1, ⟨0, 1⟩⟩, _, by unfold Direction; decide +kernel, away_sound, rfl, ?_, ?_⟩
  · unfold SeenWorld; decide +kernel
  · unfold Seen; decide +kernel

/-- The pose in the world of a `RelativeObjectPosition`, which conditions compare with, forgets the orientation. -/
theorem C150_relative_object_violated :
    ∃ (r : Pose ℚ) (p : Pose ℚ), Direction r.turn ∧ toWorld town (.relativeObject (some r) 10 0 0 .one) = .ok p ∧ Seen r p 10 0 0 ∧ ¬ Turned r.turn p.turn .one := by
  refine ⟨⟨50, 50, 1, ⟨0, 1⟩⟩, _, by unfold Direction; decide +kernel, rfl, ?_, ?_⟩
  · unfold Seen; decide +kernel
  · unfold Turned; decide +kernel

example : ∃ p, Seen (⟨50, 50, 1, ⟨3/5, 4/5⟩⟩ : Pose ℚ) p 10 5 0 ∧ Turned ⟨3/5, 4/5⟩ p.turn ⟨0, 1⟩ ∧
    ∀ o, Matched town false p o → ∃ s', teleport town false 0 away (.relativeObject (some ⟨50, 50, 1, ⟨3/5, 4/5⟩⟩) 10 5 0 ⟨0, 1⟩) = .ok s' ∧ Placed town p o s' ∧ s'.action = 0 :=
  C150_relative_partial town false 0 away away_sound rfl _ (by unfold Direction; norm_num) 10 5 0 ⟨0, 1⟩
example : ∃ s' : Status ℚ (Nat × ℚ) Nat, add town false 0 1 (.world ⟨100, 5, 0, ⟨1, 0⟩⟩) = .ok s' ∧ Placed town ⟨100, 5, 0, ⟨1, 0⟩⟩ (some (2, 5)) s' ∧ s'.action = 0 :=
  C150_add_world town town_lawful false 0 1 _ _ (Or.inr ⟨(2, 5), by decide +kernel, Or.inr ⟨by decide +kernel, by decide +kernel⟩⟩)
example : ∃ s' : Status ℚ (Nat × ℚ) Nat, add town false 0 1 (.lane (2, 5)) = .ok s' ∧ s'.canonical = some (2, 5) := by
  obtain ⟨s', h, -, b, -⟩ := (C150_add_lane town false 0 1 (2, 5)).1 (2, 5) (by decide +kernel)
  exact ⟨s', h, b⟩
example : ∃ s' : Status ℚ (Nat × ℚ) Nat, add town false 0 1 (.relativeObject (some ⟨50, 50, 1, ⟨0, 1⟩⟩) 10 0 0 .one) = .ok s' ∧ Seen ⟨50, 50, 1, ⟨0, 1⟩⟩ s'.pose 10 0 0 ∧
    Turned ⟨0, 1⟩ s'.pose.turn .one ∧ s'.canonical = none := by
  refine C150_add_relative_partial town false 0 1 ⟨50, 50, 1, ⟨0, 1⟩⟩ (by unfold Direction; decide +kernel) 10 0 0 .one ?_
  intro p h
  have h : (p.x - 50) * 0 + (p.y - 50) * 1 = 10 ∧ (p.y - 50) * 0 - (p.x - 50) * 1 = 0 ∧ p.z - 1 = 0 := h
  have hx : p.x = 50 := by linear_combination -h.2.1
  have hy : p.y = 60 := by linear_combination h.1
  left
  simp [town, hx, hy]

/-- The map of the town, where entities are matched to a lane only if they head along the first axis, as `toLaneletPose` asks for a heading within 45 degrees. -/
def strict : Map ℚ Nat (Nat × ℚ) := { town with near := fun b p => if p.turn = ⟨1, 0⟩ then town.near b p else none }

/-- C150 fails for an entity that is added relative to another one: it is matched to the lanes with the heading of the world. Added in front of a vehicle with its heading, which is across lanelet 1,
it is said to be on lanelet 1 with the heading of that lane, though no lane matches the heading that the scenario gives. -/
theorem C150_add_relative_object_violated :
    ∃ (r : Pose ℚ) (s' : Status ℚ (Nat × ℚ) Nat), Direction r.turn ∧ add strict false 0 1 (.relativeObject (some r) 10 0 3 .one) = .ok s' ∧
      (∀ p, Seen r p 10 0 3 → Turned r.turn p.turn .one → Matched strict false p none) ∧ ¬ Turned r.turn s'.pose.turn .one ∧ s'.canonical = some (1, 4) := by
  refine ⟨⟨4, -10, 0, ⟨0, 1⟩⟩, _, by unfold Direction; decide +kernel, rfl, ?_, ?_, ?_⟩
  · intro p _ h
    have h : p.turn.c * 0 + p.turn.s * 1 = 1 ∧ p.turn.s * 0 - p.turn.c * 1 = 0 := h
    left
    have : p.turn ≠ ⟨1, 0⟩ := by
      intro e
      rw [e] at h
      exact absurd h.1 (by norm_num)
    simp [strict, this]
  · unfold Turned; decide +kernel
  · decide +kernel

/-- C151: whatever is done to an entity, the parts of its status agree: it has a valid pose on a lane exactly if it is on a lane, that pose is canonical, and its height and heading in the world are those of the lane. -/
theorem C151_sound [DecidableEq L] [Mul K] [Add K] [Sub K] (m : Map K I L) (hm : Lawful m) (c : Bool) (still : A) (s : Status K L A) (hs : Sound m s) (cs : List (Change K I L)) :
    Sound m (run m c still s cs) := by
  induction cs generalizing s with
  | nil => exact hs
  | cons ch cs ih =>
    apply ih
    cases ch with
    | report p route => exact set_sound hm _ _ _
    | teleport p =>
      cases p with
      | world p => exact set_sound hm _ _ _
      | relativeWorld r dx dy dz t => cases r with
        | none => exact hs
        | some r => exact set_sound hm _ _ _
      | relativeObject r dx dy dz t => cases r with
        | none => exact hs
        | some r => exact set_sound hm _ _ _
      | lane l =>
        simp only [step, teleport]
        cases h : m.canon l with
        | none => exact hs
        | some l' => exact make_sound _ _ (fun l'' e => by cases e; exact hm.again _ _ h)

/-- C151: a new entity starts with parts that agree. -/
theorem C151_added [DecidableEq L] [Mul K] [Add K] [Sub K] [OfNat K 0] [OfNat K 1] (m : Map K I L) (hm : Lawful m) (c : Bool) (still waiting : A) (p : Position K L) (s : Status K L A) (h : add m c still waiting p = .ok s) : Sound m s := by
  cases p with
  | world p => cases h; exact set_sound hm _ _ _
  | relativeWorld r dx dy dz t => cases h
  | relativeObject r dx dy dz t => cases r with
    | none => cases h
    | some r => cases h; exact set_sound hm _ _ _
  | lane l =>
    simp only [add] at h
    cases e : m.canon l with
    | none => simp only [e] at h; cases h
    | some l' =>
      simp only [e, teleport] at h
      cases h
      exact make_sound _ _ (fun l'' e' => by cases e'; exact hm.again _ _ e)

/-- C151: what the other simulator reports about the ego is where the ego is, whatever it was before: on one of the lanes of the route if it is matched to one of them, else on the lane that is there. -/
theorem C151_report [DecidableEq L] (m : Map K I L) (s : Status K L A) (p : Pose K) (route : List I) (o : Option L)
    (ho : (∃ l, route ≠ [] ∧ m.on route p = some l ∧ ((l = m.blank ∧ o = none) ∨ (l ≠ m.blank ∧ o = m.canon l))) ∨ ((route = [] ∨ m.on route p = none) ∧ Matched m false p o)) :
    Placed m p o (setMapPose m s p route) ∧ (setMapPose m s p route).action = s.action := by
  have hl : locate m route false p = o := by
    unfold locate
    obtain ⟨l, hr, hon, h⟩ | ⟨h, hm⟩ := ho
    · have : route.isEmpty = false := by cases route; exact absurd rfl hr; rfl
      rw [this, hon]
      simp only [Bool.false_eq_true, if_false, Option.some_or, Option.bind_some, toCanonical]
      obtain ⟨a, b⟩ | ⟨a, b⟩ := h
      · rw [if_pos a, b]
      · rw [if_neg a, b]
    · have : (if route.isEmpty then none else m.on route p) = none := by
        obtain h | h := h
        · rw [h]; rfl
        · rw [h]; split <;> rfl
      rw [this, Option.none_or, matched_iff hm]
  have : setMapPose m s p route = make m { s.toRaw with pose := p, valid := false } o := by
    unfold setMapPose set
    simp only [Bool.false_eq_true, if_false, hl]
  rw [this]
  exact ⟨make_placed _ _, by cases o <;> rfl⟩

/-- Once the scenario runs and the ego is driven by Autoware, its status may not be set: the ego refuses it. A teleport in the scenario sets it all the same. -/
theorem C151_guard_violated :
    (∀ f : Status ℚ (Nat × ℚ) Nat → Status ℚ (Nat × ℚ) Nat, guard (1 : ℚ) false f here = .error .thrown) ∧
      ∃ s', teleport town false 0 here (.lane (2, 5)) = .ok s' ∧ s'.canonical = some (2, 5) ∧ here.canonical = some (1, 4) := by
  refine ⟨fun f => ?_, ?_⟩
  · unfold guard
    rw [if_pos ⟨by norm_num, rfl⟩]
  · obtain ⟨s', h, -, b, -⟩ := (C150_lane town false 0 here (2, 5)).1 (2, 5) (by decide +kernel)
    exact ⟨s', h, b, rfl⟩

/-- The status of the ego may be set through its own function before the scenario runs, or when the simulator drives it. -/
theorem C151_guard [LT K] [DecidableLT K] [OfNat K 0] (time : K) (controlled : Bool) (f : Status K L A → Status K L A) (s : Status K L A) :
    guard time controlled f s = .ok (f s) ↔ (¬ 0 < time ∨ controlled = true) := by
  unfold guard
  split
  · rename_i h
    simp [h.1, h.2]
  · rename_i h
    refine ⟨fun _ => ?_, fun _ => rfl⟩
    cases controlled
    · exact Or.inl fun ht => h ⟨ht, rfl⟩
    · exact Or.inr rfl

example : Sound town (run town false 0 here [.teleport (.world ⟨100, 5, 5, ⟨0, 1⟩⟩), .report ⟨100, 5, 5, ⟨0, 1⟩⟩ [1], .teleport (.lane (3, 3))]) := C151_sound town town_lawful false 0 here here_sound _
example : Placed town ⟨100, 5, 0, ⟨0, 1⟩⟩ (some (2, 5)) (setMapPose town here ⟨100, 5, 0, ⟨0, 1⟩⟩ [1]) :=
  (C151_report town here ⟨100, 5, 0, ⟨0, 1⟩⟩ [1] (some (2, 5)) (Or.inr ⟨Or.inr (by decide +kernel), Or.inr ⟨(2, 5), by decide +kernel, Or.inr ⟨by decide +kernel, by decide +kernel⟩⟩⟩)).1
example : ∃ s : Status ℚ (Nat × ℚ) Nat, add town false 0 1 (.lane (2, 5)) = .ok s ∧ Sound town s := by
  obtain ⟨s', h, -⟩ := (C150_add_lane town false 0 1 (2, 5)).1 (2, 5) (by decide +kernel)
  exact ⟨s', h, C151_added town town_lawful false 0 1 _ s' h⟩

end Verif.Place
