import Verif.Distance.LaneTheorems
import Verif.Distance.BoxTheorems
/-
C128, C129: relative poses on lanes.
-/
namespace Verif.Distance

variable {K : Type} [Field K] [LinearOrder K] [IsStrictOrderedRing K] {m : Map K} {pos off : Nat → K}

omit [IsStrictOrderedRing K] in
/-- The relative pose on lanes from one place to another has the way along the road and the distance across it. -/
theorem C128_relative (h : Laid (.id K) m pos) (hb : Beside m off) {c : Bool} {p q : Place K} (hq : OnePoint (.id K) pos q)
    (hc : c = true ∨ Way m p.pose.id q.pose.id (m.route c p.pose.id q.pose.id)) :
    (∀ d, (relative m c p q).s = some d → d = (pos q.pose.id + q.pose.s) - (pos p.pose.id + p.pose.s)) ∧
    (∀ d, (relative m c p q).offset = some d → d = (off q.pose.id + q.pose.offset) - (off p.pose.id + p.pose.offset)) :=
  ⟨fun d hd => by simpa [at'] using C128_longitudinal h hq hd, fun _ hd => C128_lateral hb hc hd⟩

example : (relative road true (place 1 4 (1/2)) (place 4 5 1)).offset = some (7/2) ∧ (relative road false (place 1 4 0) (place 3 5 0)).s = some 31 ∧
    (relative road false (place 3 5 0) (place 1 4 0)).s = some (-31) := by decide +kernel

/-- The relative pose of bodies has the free space between them: from `p` with the body `a` to `q` with the body `b`. -/
theorem C129_relative_partial (h : Laid (.id K) m pos) (hb : Beside m off) {c : Bool} {p q : Place K} (hq : OnePoint (.id K) pos q)
    (hc : c = true ∨ Way m p.pose.id q.pose.id (m.route c p.pose.id q.pose.id)) (a b : Box K) (ha : a.Covers) (hb' : b.Covers) (hay : a.cy = 0) (hby : b.cy = 0) (had : 0 ≤ a.dy) (hbd : 0 ≤ b.dy)
    (alo ahi blo bhi : K) (hA : a.Along (pos p.pose.id + p.pose.s) alo ahi) (hB : b.Along (pos q.pose.id + q.pose.s) blo bhi)
    (ar al br bl : K) (hA' : a.Across (off p.pose.id + p.pose.offset) ar al) (hB' : b.Across (off q.pose.id + q.pose.offset) br bl) :
    (∀ x, (boxRelative m c p a q b).s = some x → (pos p.pose.id + p.pose.s < pos q.pose.id + q.pose.s → x = blo - ahi) ∧ (pos q.pose.id + q.pose.s < pos p.pose.id + p.pose.s → x = -(alo - bhi))) ∧
    (∀ x, (boxRelative m c p a q b).offset = some x → (off p.pose.id + p.pose.offset < off q.pose.id + q.pose.offset → x = br - al) ∧
      (off q.pose.id + q.pose.offset < off p.pose.id + p.pose.offset → x = -(ar - bl))) := by
  obtain ⟨rfl, rfl⟩ := hA
  obtain ⟨rfl, rfl⟩ := hB
  obtain ⟨rfl, rfl⟩ := hA'
  obtain ⟨rfl, rfl⟩ := hB'
  obtain ⟨hs, ho⟩ := C128_relative h hb hq hc
  refine ⟨fun x hx => ?_, fun x hx => ?_⟩
  · simp only [boxRelative] at hx
    cases hd : longitudinal m c p q with
    | none => rw [hd] at hx; cases hx
    | some d =>
      have he := hs d hd
      rw [hd] at hx
      obtain ⟨h1, h2, _⟩ := C129_longitudinal_partial a b ha hb' d _ _ _ _ ⟨rfl, rfl⟩ ⟨rfl, rfl⟩
      refine ⟨fun hlt => ?_, fun hlt => ?_⟩
      · rw [h1 (by linarith)] at hx
        cases hx; linarith
      · rw [h2 (by linarith)] at hx
        cases hx; linarith
  · simp only [boxRelative] at hx
    cases hd : lateral m c p.pose q.pose with
    | none => rw [hd] at hx; cases hx
    | some d =>
      have he := ho d hd
      rw [hd] at hx
      obtain ⟨h1, h2, _⟩ := C129_lateral_partial a b hay hby had hbd d _ _ _ _ ⟨rfl, rfl⟩ ⟨rfl, rfl⟩
      refine ⟨fun hlt => ?_, fun hlt => ?_⟩
      · rw [h1 (by linarith)] at hx
        cases hx; linarith
      · rw [h2 (by linarith)] at hx
        cases hx; linarith

/- A longer body. -/
def bus : Box ℚ := ⟨3, 0, 10, 3⟩

example : (boxRelative road false (place 1 4 0) car (place 3 5 0) bus).s = some 26 ∧ (boxRelative road false (place 3 5 0) bus (place 1 4 0) car).s = some (-26) ∧
    (boxRelative road true (place 1 4 0) car (place 4 5 0) bus).offset = some (1/2) ∧ bus.Covers := by
  simp only [Box.Covers]; decide +kernel

end Verif.Distance
