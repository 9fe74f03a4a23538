import Verif.Spawn.Spec
import Mathlib.Tactic.Linarith
import Mathlib.Tactic.Ring
import Mathlib.Algebra.Order.Ring.Rat
import Mathlib.Algebra.Field.Rat
/-
C251: where traffic sources place entities.
-/
namespace Verif.Spawn

set_option linter.unusedSectionVars false

variable {K Q P L B E : Type} [Field K] [LinearOrder K] [IsStrictOrderedRing K]

theorem randomPose_area (g : Ground K Q P L B) (r : Engine K E) (s : Source K Q B) (h : Lawful g r s) (b : Bool) (e : E) :
    InArea s (randomPose g r s b e).1 := by
  obtain ⟨hc, hr⟩ := h
  obtain ⟨r0, r1⟩ := hr (r.angle e).2
  have hx : (randomPose g r s b e).1.x = s.pose.x + (r.radius (r.angle e).2).1 * g.cos (r.angle e).1 ∧
      (randomPose g r s b e).1.y = s.pose.y + (r.radius (r.angle e).2).1 * g.sin (r.angle e).1 := by
    unfold randomPose
    dsimp only
    split <;> (repeat' split) <;> exact ⟨rfl, rfl⟩
  unfold InArea
  rw [hx.1, hx.2]
  have c := hc (r.angle e).1
  generalize g.cos (r.angle e).1 = u at *
  generalize g.sin (r.angle e).1 = v at *
  generalize (r.radius (r.angle e).2).1 = d at *
  have : (s.pose.x + d * u - s.pose.x) * (s.pose.x + d * u - s.pose.x) + (s.pose.y + d * v - s.pose.y) * (s.pose.y + d * v - s.pose.y) =
      d * d * (u * u + v * v) := by ring
  rw [this, c, mul_one]
  exact mul_le_mul r1 r1 r0 (le_trans r0 r1)

theorem randomPose_turned (g : Ground K Q P L B) (r : Engine K E) (s : Source K Q B) (b : Bool) (e : E) :
    (s.config.turned = false → (randomPose g r s b e).1.orientation = s.pose.orientation) ∧
    (s.config.turned = true → ∃ a, (randomPose g r s b e).1.orientation = g.yaw a) := by
  unfold randomPose
  dsimp only
  constructor
  · intro h
    rw [if_neg (by simp [h])]
    (repeat' split) <;> rfl
  · intro h
    rw [if_pos h]
    exact ⟨_, rfl⟩

theorem draw_some (g : Ground K Q P L B) (r : Engine K E) (s : Source K Q B) (n : Entry B) (k : Nat) (e : E) (p : Pose K Q) (l : Option L)
    (h : (draw g r s n k e).1 = some (p, l)) : isPoseValid g s n p = (true, l) ∧ ∃ e', p = (randomPose g r s n.pedestrian e').1 := by
  induction k generalizing e with
  | zero => simp [draw] at h
  | succ k ih =>
    unfold draw at h
    dsimp only at h
    split at h
    · next q v =>
      simp only [Option.some.injEq, Prod.mk.injEq] at h
      obtain ⟨h1, h2⟩ := h
      subst h1 h2
      exact ⟨v, e, rfl⟩
    · exact ih _ h

theorem valid_cases (g : Ground K Q P L B) (s : Source K Q B) (n : Entry B) (p : Pose K Q) (l : Option L) (h : isPoseValid g s n p = (true, l)) :
    (s.config.outside = true ∧ l = none) ∨
    (s.config.outside = false ∧ ∃ a, g.toLane p n.pedestrian = some a ∧ l = some (g.align a) ∧ (s.config.fitting = true → Fits g s n (g.align a))) := by
  have val : ∀ c pts i, validate g s c pts i = true → i ∈ g.limited s.pose s.radius c ∧
      ∀ q ∈ pts, ∃ j ∈ g.limited s.pose s.radius c, g.isIn q j = true := by
    intro c pts i v
    simp only [validate, Bool.and_eq_true, decide_eq_true_eq, List.all_eq_true, List.any_eq_true] at v
    exact v
  unfold isPoseValid at h
  split at h
  · simp at h
  · by_cases o : s.config.outside = true
    · rw [if_pos o] at h
      simp only [Prod.mk.injEq, true_and] at h
      exact Or.inl ⟨o, h.symm⟩
    · rw [if_neg o] at h
      refine Or.inr ⟨by simpa using o, ?_⟩
      split at h
      · simp at h
      · next a ha =>
        dsimp only at h
        refine ⟨a, ha, ?_⟩
        by_cases f : s.config.fitting = true
        · simp only [f, Bool.not_true, Bool.false_eq_true, if_false, Bool.false_or] at h
          split at h
          · next pd =>
            simp only [Prod.mk.injEq] at h
            refine ⟨h.2.symm, fun _ => ?_⟩
            unfold Fits; rw [pd]; exact val _ _ _ h.1
          · next pd =>
            simp only [Prod.mk.injEq] at h
            refine ⟨h.2.symm, fun _ => ?_⟩
            have pd' : n.pedestrian = false := by simpa using pd
            unfold Fits; rw [pd']; exact val _ _ _ h.1
        · rw [if_pos (by simp [f])] at h
          simp only [Prod.mk.injEq, true_and] at h
          exact ⟨h.symm, fun x => absurd x f⟩

/-- C251: if entities may be off the lanes, each is placed on the map, in the area of the source, turned as the source or at random as
configured; it is of one entry of the distribution, with its behaviour and model. -/
theorem C251_world (attempts : Nat) (g : Ground K Q P L B) (r : Engine K E) (s : Source K Q B) (h : Lawful g r s) (o : s.config.outside = true) (e : E)
    (n : Entry B) (w : Place K Q L) (k : (spawn attempts g r s e).1 = some (n, w)) :
    s.entries[(r.index e).1]? = some n ∧ ∃ p, w = .world p ∧ InArea s p ∧ (s.config.turned = false → p.orientation = s.pose.orientation) ∧
      (s.config.turned = true → ∃ a, p.orientation = g.yaw a) := by
  unfold spawn at k
  dsimp only at k
  split at k
  · simp at k
  · next n' hn =>
    split at k
    · simp at k
    · next l e' d =>
      have := valid_cases g s n' _ _ (draw_some g r s n' _ _ _ _ (congrArg Prod.fst d)).1
      rcases this with ⟨_, x⟩ | ⟨x, _⟩
      · cases x
      · rw [o] at x; cases x
    · next p e' d =>
      simp only [Option.some.injEq, Prod.mk.injEq] at k
      obtain ⟨k1, k2⟩ := k
      subst k1 k2
      obtain ⟨_, e'', q⟩ := draw_some g r s n' _ _ _ _ (congrArg Prod.fst d)
      refine ⟨hn, p, rfl, ?_, ?_, ?_⟩
      · rw [q]; exact randomPose_area g r s h _ _
      · rw [q]; exact (randomPose_turned g r s _ _).1
      · rw [q]; exact (randomPose_turned g r s _ _).2

/-- C251: otherwise each is placed on a lane and along it, where a pose in the area of the source is; if its footprint has to fit, it fits
into the lanelets near the source, among which there are crosswalks for pedestrians only. -/
theorem C251_lane (attempts : Nat) (g : Ground K Q P L B) (r : Engine K E) (s : Source K Q B) (h : Lawful g r s) (o : s.config.outside = false) (e : E)
    (n : Entry B) (w : Place K Q L) (k : (spawn attempts g r s e).1 = some (n, w)) :
    s.entries[(r.index e).1]? = some n ∧ ∃ p a, InArea s p ∧ g.toLane p n.pedestrian = some a ∧ w = .lane (g.align a) ∧
      (s.config.fitting = true → Fits g s n (g.align a)) := by
  unfold spawn at k
  dsimp only at k
  split at k
  · simp at k
  · next n' hn =>
    split at k
    · simp at k
    · next p l e' d =>
      simp only [Option.some.injEq, Prod.mk.injEq] at k
      obtain ⟨k1, k2⟩ := k
      subst k1 k2
      obtain ⟨v, e'', q⟩ := draw_some g r s n' _ _ _ _ (congrArg Prod.fst d)
      rcases valid_cases g s n' _ _ v with ⟨x, _⟩ | ⟨_, a, ha, hl, f⟩
      · rw [o] at x; cases x
      · refine ⟨hn, p, a, ?_, ha, ?_, f⟩
        · rw [q]; exact randomPose_area g r s h _ _
        · rw [Option.some.inj hl]
    · next p e' d =>
      have := valid_cases g s n' _ _ (draw_some g r s n' _ _ _ _ (congrArg Prod.fst d)).1
      rcases this with ⟨x, _⟩ | ⟨_, a, _, x, _⟩
      · rw [o] at x; cases x
      · cases x

theorem valid_iff (g : Ground K Q P L B) (s : Source K Q B) (n : Entry B) (p : Pose K Q) : (isPoseValid g s n p).1 = true ↔ Usable g s n p := by
  have val : ∀ c pts i, validate g s c pts i = true ↔ i ∈ g.limited s.pose s.radius c ∧
      ∀ q ∈ pts, ∃ j ∈ g.limited s.pose s.radius c, g.isIn q j = true := by
    intro c pts i
    simp only [validate, Bool.and_eq_true, decide_eq_true_eq, List.all_eq_true, List.any_eq_true]
  unfold isPoseValid Usable
  by_cases c : ((g.transform p n.corners).all fun c => g.close c p s.radius) = true
  · have c' := List.all_eq_true.mp c
    rw [if_neg (by simp only [c]; simp)]
    cases o : s.config.outside with
    | true => simpa using c'
    | false =>
      simp only [Bool.false_eq_true, if_false, false_or]
      cases t : g.toLane p n.pedestrian with
      | none => simp
      | some a =>
        simp only [Option.some.injEq, exists_eq_left']
        cases f : s.config.fitting with
        | false => simpa using c'
        | true =>
          cases d : n.pedestrian <;> simp only [Bool.not_true, Bool.false_eq_true, if_false, if_true, Bool.false_or, val, Fits, d, forall_const]
          · exact ⟨fun h => ⟨c', h⟩, fun h => h.2⟩
          · exact ⟨fun h => ⟨c', h⟩, fun h => h.2⟩
  · rw [if_pos (by simp only [Bool.not_eq_true] at c; simp only [c]; rfl)]
    constructor
    · intro h; cases h
    · intro h; exact absurd (List.all_eq_true.mpr h.1) c

/-- C251: an entity is only put where it can be: at a pose that can be used or at the place on the lane there. -/
theorem C251_usable (attempts : Nat) (g : Ground K Q P L B) (r : Engine K E) (s : Source K Q B) (e : E) (n : Entry B) (w : Place K Q L)
    (k : (spawn attempts g r s e).1 = some (n, w)) :
    ∃ p, Usable g s n p ∧ (w = .world p ∨ ∃ a, g.toLane p n.pedestrian = some a ∧ w = .lane (g.align a)) := by
  unfold spawn at k
  dsimp only at k
  split at k
  · simp at k
  · next n' hn =>
    split at k
    · simp at k
    · next p l e' d =>
      simp only [Option.some.injEq, Prod.mk.injEq] at k
      obtain ⟨k1, k2⟩ := k
      subst k1 k2
      obtain ⟨v, -⟩ := draw_some g r s n' _ _ _ _ (congrArg Prod.fst d)
      refine ⟨p, (valid_iff g s n' p).mp (by rw [v]), Or.inr ?_⟩
      rcases valid_cases g s n' _ _ v with ⟨_, x⟩ | ⟨_, a, ha, hl, _⟩
      · cases x
      · exact ⟨a, ha, by rw [Option.some.inj hl]⟩
    · next p e' d =>
      simp only [Option.some.injEq, Prod.mk.injEq] at k
      obtain ⟨k1, k2⟩ := k
      subst k1 k2
      obtain ⟨v, -⟩ := draw_some g r s n' _ _ _ _ (congrArg Prod.fst d)
      exact ⟨p, (valid_iff g s n' p).mp (by rw [v]), Or.inl rfl⟩

/-- C251: an entity on the map is at the altitude of the source or at that of a lanelet near it. -/
theorem C251_altitude (attempts : Nat) (g : Ground K Q P L B) (r : Engine K E) (s : Source K Q B) (e : E) (n : Entry B) (p : Pose K Q)
    (k : (spawn attempts g r s e).1 = some (n, .world p)) :
    ∃ d, let q : Pose K Q := ⟨p.x, p.y, s.pose.z, s.pose.orientation⟩
      some p.z = match g.near q d n.pedestrian with
        | [] => some s.pose.z
        | i :: _ => some ((g.altitude i q d).getD s.pose.z) := by
  have : ∃ e', p = (randomPose g r s n.pedestrian e').1 := by
    unfold spawn at k
    dsimp only at k
    split at k
    · simp at k
    · next n' hn =>
      split at k
      · simp at k
      · simp at k
      · next p' e' d =>
        simp only [Option.some.injEq, Prod.mk.injEq, Place.world.injEq] at k
        obtain ⟨k1, k2⟩ := k
        subst k1 k2
        exact (draw_some g r s n' _ _ _ _ (congrArg Prod.fst d)).2
  obtain ⟨e', q⟩ := this
  refine ⟨(r.radius (r.angle e').2).1, ?_⟩
  subst q
  have hx : (randomPose g r s n.pedestrian e').1.x = s.pose.x + (r.radius (r.angle e').2).1 * g.cos (r.angle e').1 ∧
      (randomPose g r s n.pedestrian e').1.y = s.pose.y + (r.radius (r.angle e').2).1 * g.sin (r.angle e').1 := by
    unfold randomPose
    dsimp only
    split <;> (repeat' split) <;> exact ⟨rfl, rfl⟩
  dsimp only
  rw [hx.1, hx.2]
  unfold randomPose
  dsimp only
  cases m : g.near ⟨s.pose.x + (r.radius (r.angle e').2).1 * g.cos (r.angle e').1, s.pose.y + (r.radius (r.angle e').2).1 * g.sin (r.angle e').1,
    s.pose.z, s.pose.orientation⟩ (r.radius (r.angle e').2).1 n.pedestrian with
  | nil => dsimp only; split <;> rfl
  | cons i l =>
    dsimp only
    cases z : g.altitude i ⟨s.pose.x + (r.radius (r.angle e').2).1 * g.cos (r.angle e').1, s.pose.y + (r.radius (r.angle e').2).1 * g.sin (r.angle e').1,
      s.pose.z, s.pose.orientation⟩ (r.radius (r.angle e').2).1 <;> (dsimp only; split <;> rfl)

/-- The state of the engine after `k` poses have been drawn. -/
def after (g : Ground K Q P L B) (r : Engine K E) (s : Source K Q B) (b : Bool) : Nat → E → E
  | 0, e => e
  | k + 1, e => after g r s b k (randomPose g r s b e).2

/-- C251: a source gives up exactly if as many poses in a row as it may try, ten thousand, cannot be used. -/
theorem C251_error (attempts : Nat) (g : Ground K Q P L B) (r : Engine K E) (s : Source K Q B) (e : E) (n : Entry B) (hn : s.entries[(r.index e).1]? = some n) :
    (spawn attempts g r s e).1 = none ↔
      ∀ k < attempts, ¬ Usable g s n (randomPose g r s n.pedestrian (after g r s n.pedestrian k (r.index e).2)).1 := by
  simp only [← valid_iff, Bool.not_eq_true]
  have key : ∀ m e, (draw g r s n m e).1 = none ↔
      ∀ k < m, (isPoseValid g s n (randomPose g r s n.pedestrian (after g r s n.pedestrian k e)).1).1 = false := by
    intro m
    induction m with
    | zero => intro e; simp [draw]
    | succ m ih =>
      intro e
      unfold draw
      dsimp only
      split
      · next l v =>
        constructor
        · intro x; cases x
        · intro x
          have := x 0 (by omega)
          simp only [after] at this
          rw [v] at this; cases this
      · next l v =>
        rw [ih]
        constructor
        · intro x k hk
          cases k with
          | zero => simp only [after]; rw [v]
          | succ k => exact x k (by omega)
        · intro x k hk
          exact x (k + 1) (by omega)
  rw [← key]
  unfold spawn
  dsimp only
  rw [hn]
  dsimp only
  cases d : draw g r s n attempts (r.index e).2 with
  | mk a b =>
    cases a with
    | none => simp
    | some pl => obtain ⟨p, l⟩ := pl; cases l <;> simp

/-! A road along the x-axis with the lanelets 1 and, a crosswalk, 2. -/

def exGround : Ground Rat Rat (Rat × Rat) Rat (Rat × Rat) where
  toLane p _ := if p.y < 2 ∧ -2 < p.y then some p.x else none
  align l := l
  lane _ := 1
  toMap l := ⟨l, 0, 0, 0⟩
  transform p b := b.map fun c => (p.x + c.1, p.y + c.2)
  isIn c i := decide (i = 1 ∧ -2 ≤ c.2 ∧ c.2 ≤ 2)
  near _ _ b := if b then [1, 2] else [1]
  limited _ _ b := if b then [1, 2] else [1]
  altitude _ _ _ := some 5
  close c p r := decide ((c.1 - p.x) * (c.1 - p.x) + (c.2 - p.y) * (c.2 - p.y) < r * r)
  cos _ := 3 / 5
  sin _ := 4 / 5
  yaw a := a

/-- An engine that counts. -/
def exEngine : Engine Rat Nat where
  angle e := ((e : Nat), e + 1)
  radius e := ((if e < 5 then 10 else 1 : Rat), e + 1)
  index e := (0, e + 1)

def exSource (c : Config) : Source Rat Rat (Rat × Rat) :=
  ⟨10, ⟨0, 0, 0, 0⟩, [⟨false, [(2, 1), (-2, -1)], "b", "m"⟩], c⟩

example (c : Config) : Lawful exGround exEngine (exSource c) := by
  constructor
  · intro a; show (3 / 5 : Rat) * (3 / 5) + 4 / 5 * (4 / 5) = 1; decide +kernel
  · intro e; show (0 : Rat) ≤ (if e < 5 then 10 else 1) ∧ (if e < 5 then (10 : Rat) else 1) ≤ 10
    split <;> decide +kernel

/-- Few attempts are enough here. The first poses drawn are off the road; the entity is put where the first one on it is. -/
example : (match (spawn 5 exGround exEngine (exSource ⟨false, true, false⟩) 0).1 with | some (n, .lane l) => some (n.behavior, l) | _ => none) = some ("b", 3 / 5) := by
  decide +kernel
example : (match (spawn 5 exGround exEngine (exSource ⟨true, true, true⟩) 0).1 with | some (_, .world p) => some p | _ => none) = some ⟨6, 8, 5, 3⟩ := by
  decide +kernel

end Verif.Spawn
