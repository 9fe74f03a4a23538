import Verif.Sensing.Select
import Verif.Sensing.Spec
import Mathlib.Tactic.FieldSimp
import Mathlib.Tactic.Ring
import Mathlib.Tactic.NormNum
import Mathlib.Tactic.LinearCombination
import Mathlib.Data.List.Pairwise

/-! C139 and C140: the noise that is configured for a place and for an entity. -/

namespace Verif.Sensing

theorem hypot_lt (a b r : ℝ) : Real.sqrt (a ^ 2 + b ^ 2) < r ↔ 0 < r ∧ a ^ 2 + b ^ 2 < r ^ 2 := by
  constructor
  · intro h
    have hr : 0 < r := lt_of_le_of_lt (Real.sqrt_nonneg _) h
    exact ⟨hr, (Real.sqrt_lt' hr).1 h⟩
  · rintro ⟨hr, h⟩
    exact (Real.sqrt_lt' hr).2 h

theorem pick_documented (ratio x y : ℝ) : ∀ (radii values : List ℝ), radii.length = values.length →
    Documented ratio radii values x y (pick (Real.sqrt ((x / ratio) ^ 2 + y ^ 2)) radii values)
  | [], [], _ => by right; simp [pick]
  | r :: radii, v :: values, h => by
    simp only [List.length_cons, Nat.add_right_cancel_iff] at h
    by_cases hd : Real.sqrt ((x / ratio) ^ 2 + y ^ 2) < r
    · left
      refine ⟨0, by simp, by simp, (hypot_lt _ _ _).1 hd, by simp, ?_⟩
      simp [pick, hd]
    · have hn : ¬ Within ratio r x y := fun hw => hd ((hypot_lt _ _ _).2 hw)
      rcases pick_documented ratio x y radii values h with ⟨i, h1, h2, hw, hj, hv⟩ | ⟨hall, hv⟩
      · left
        refine ⟨i + 1, by simpa using h1, by simpa using h2, by simpa using hw, ?_, ?_⟩
        · intro j hj'
          cases j with
          | zero => simpa using hn
          | succ j => simpa using hj j (by omega)
        · simp only [List.getElem_cons_succ, pick, if_neg hd, hv]
      · right
        refine ⟨?_, by simp only [pick, if_neg hd, hv]⟩
        intro r' hr'
        rcases List.mem_cons.1 hr' with rfl | hr'
        · exact hn
        · exact hall r' hr'

/-- **C139.** With as many values as radii, and a ratio of the axes that is not zero, the value used
for a place is the one documented: that of the first ellipse that contains the place, and zero beyond
all of them. -/
theorem C139_documented (p : Parameters) (base name : Text) (radii values : List ℝ) (ratio x y : ℝ)
    (hr : p.numbers (base ++ "ellipse_y_radii".toList) = some radii)
    (hq : p.number (base ++ name ++ ".ellipse_normalized_x_radius".toList) = some ratio)
    (hv : p.numbers (base ++ name ++ ".values".toList) = some values)
    (hl : radii.length = values.length) (h0 : ratio ≠ 0) :
    ∃ v, selected p base x y name = some v ∧ Documented ratio radii values x y v := by
  refine ⟨_, ?_, pick_documented ratio x y radii values hl⟩
  simp only [selected, Parameters.numbersOf, Parameters.numberOf, hr, hq, hv, Option.getD_some, hl, if_true, if_neg h0]

/-- Parameters for the examples: two radii. -/
noncomputable def sample : Parameters where
  number n := if n = "b.distance.mean.ellipse_normalized_x_radius".toList then some 2 else none
  numbers n :=
    if n = "b.ellipse_y_radii".toList then some [10, 20]
    else if n = "b.distance.mean.values".toList then some [3, 4] else none
  texts _ := none

theorem sample_selected (x y : ℝ) : selected sample "b.".toList x y "distance.mean".toList =
    some (pick (Real.sqrt ((x / 2) ^ 2 + y ^ 2)) [10, 20] [3, 4]) := by
  have h1 : sample.numbers ("b.".toList ++ "ellipse_y_radii".toList) = some [10, 20] := by
    unfold sample; simp
  have h2 : sample.number ("b.".toList ++ "distance.mean".toList ++ ".ellipse_normalized_x_radius".toList) = some 2 := by
    unfold sample; simp
  have h3 : sample.numbers ("b.".toList ++ "distance.mean".toList ++ ".values".toList) = some [3, 4] := by
    unfold sample; simp
  unfold selected Parameters.numbersOf Parameters.numberOf
  rw [h1, h2, h3]
  simp

example : selected sample "b.".toList 30 0 "distance.mean".toList = some 4 := by
  rw [sample_selected]
  have h1 : ¬ Real.sqrt ((30 / 2) ^ 2 + 0 ^ 2) < 10 := by rw [hypot_lt]; norm_num
  have h2 : Real.sqrt ((30 / 2) ^ 2 + 0 ^ 2) < 20 := by rw [hypot_lt]; norm_num
  simp only [pick, if_neg h1, if_pos h2]

/-- **C139.** With ascending radii the value is that of the ring in which the place lies. -/
theorem C139_ring (ratio x y v : ℝ) (radii values : List ℝ) (hs : radii.Pairwise (· < ·)) (hp : ∀ r ∈ radii, 0 < r)
    (hl : radii.length = values.length)
    (h : Documented ratio radii values x y v) (i : Nat) (hi : i < radii.length)
    (hin : (x / ratio) ^ 2 + y ^ 2 < radii[i] ^ 2)
    (hout : ∀ h' : 0 < i, radii[i - 1] ^ 2 ≤ (x / ratio) ^ 2 + y ^ 2) : v = values[i] := by
  have hposi : 0 < radii[i] := hp _ (List.getElem_mem hi)
  have hprev : ∀ j (hj : j < i), ¬ Within ratio (radii[j]'(hj.trans hi)) x y := by
    rintro j hj ⟨hpos, hw⟩
    have hle : radii[j]'(hj.trans hi) ≤ radii[i - 1] := by
      rcases Nat.lt_or_ge j (i - 1) with hlt | hge
      · exact (List.pairwise_iff_getElem.1 hs j (i - 1) _ _ hlt).le
      · have : j = i - 1 := by omega
        subst this; exact le_refl _
    have := hout (by omega)
    nlinarith
  rcases h with ⟨k, hk, hk', hw, hj, hv⟩ | ⟨hall, _⟩
  · rcases Nat.lt_trichotomy k i with hlt | rfl | hgt
    · exact absurd hw (hprev k hlt)
    · exact hv.symm
    · exact absurd ⟨hposi, hin⟩ (hj i hgt)
  · exact absurd ⟨hposi, hin⟩ (hall _ (List.getElem_mem hi))

example : ∃ v, Documented 2 [10, 20] [3, 4] 30 0 v ∧ v = 4 := by
  refine ⟨4, Or.inl ⟨1, by simp, by simp, ⟨by norm_num, by norm_num⟩, ?_, by simp⟩, rfl⟩
  intro j hj
  have : j = 0 := by omega
  subst this
  simp [Within]; norm_num

/-- **C139.** Lists of different sizes are an error, and nothing else is. -/
theorem C139_sizes (p : Parameters) (base name : Text) (x y : ℝ) :
    selected p base x y name = none ↔
      ((p.numbers (base ++ "ellipse_y_radii".toList)).getD []).length ≠
        ((p.numbers (base ++ name ++ ".values".toList)).getD []).length := by
  unfold selected Parameters.numbersOf
  simp only
  split
  · split <;> simp_all
  · simp_all

example : selected sample "b.".toList 0 0 "yaw.mean".toList = none := by
  rw [C139_sizes]
  have h1 : sample.numbers ("b.".toList ++ "ellipse_y_radii".toList) = some [10, 20] := by
    unfold sample; simp
  have h3 : sample.numbers ("b.".toList ++ "yaw.mean".toList ++ ".values".toList) = none := by
    unfold sample; simp
  rw [h1, h3]; simp

/-- **C139, violated.** A ratio that is missing is not an error: it is zero, and then there is no noise
anywhere, even for entities next to the ego. -/
theorem C139_ratio_violated (p : Parameters) (base name : Text) (radii values : List ℝ)
    (hr : p.numbers (base ++ "ellipse_y_radii".toList) = some radii)
    (hq : p.number (base ++ name ++ ".ellipse_normalized_x_radius".toList) = none)
    (hv : p.numbers (base ++ name ++ ".values".toList) = some values)
    (hl : radii.length = values.length) (x y : ℝ) : selected p base x y name = some 0 := by
  simp only [selected, Parameters.numbersOf, Parameters.numberOf, hr, hq, hv, Option.getD_some, Option.getD_none, hl, if_true]

example : ∃ p : Parameters, p.numbers ("b.".toList ++ "ellipse_y_radii".toList) = some [10] ∧
    p.number ("b.".toList ++ "distance.mean".toList ++ ".ellipse_normalized_x_radius".toList) = none ∧
    p.numbers ("b.".toList ++ "distance.mean".toList ++ ".values".toList) = some [3] :=
  ⟨⟨fun _ => none, fun n => if n = "b.ellipse_y_radii".toList then some [10] else some [3], fun _ => none⟩,
    by simp, rfl, by simp⟩

/-- Where the entity is as the ego sees it: ahead and to the left. -/
noncomputable def seenFrom (ego entity : Pose) : ℝ × ℝ :=
  (Real.cos ego.yaw * (entity.x - ego.x) + Real.sin ego.yaw * (entity.y - ego.y),
   -Real.sin ego.yaw * (entity.x - ego.x) + Real.cos ego.yaw * (entity.y - ego.y))

/-- **C139, in part.** The documentation measures the ellipse along the ego.  The value is the one for
the place as the ego sees it if the ellipse is a circle, or if the ego looks along the x axis of the
map.  Missing: any other case, see `C139_longitudinal_violated`. -/
theorem C139_longitudinal_partial (p : Parameters) (base name : Text) (ego entity : Pose)
    (h : (p.number (base ++ name ++ ".ellipse_normalized_x_radius".toList) = some 1 ∨
          p.number (base ++ name ++ ".ellipse_normalized_x_radius".toList) = some (-1)) ∨ ego.yaw = 0) :
    valueFor p base ego entity name = selected p base (seenFrom ego entity).1 (seenFrom ego entity).2 name := by
  have key : ∀ q : ℝ, (q = 1 ∨ q = -1) → ((entity.x - ego.x) / q) ^ 2 + (entity.y - ego.y) ^ 2 =
      ((seenFrom ego entity).1 / q) ^ 2 + (seenFrom ego entity).2 ^ 2 := by
    intro q hq
    have hsc := Real.sin_sq_add_cos_sq ego.yaw
    unfold seenFrom
    rcases hq with rfl | rfl
    · simp only [div_one]
      linear_combination (-(entity.x - ego.x) ^ 2 - (entity.y - ego.y) ^ 2) * hsc
    · simp only [div_neg, div_one, neg_sq]
      linear_combination (-(entity.x - ego.x) ^ 2 - (entity.y - ego.y) ^ 2) * hsc
  rcases h with (h | h) | h
  · simp only [valueFor, selected, Parameters.numberOf, h, Option.getD_some, key 1 (Or.inl rfl)]
  · simp only [valueFor, selected, Parameters.numberOf, h, Option.getD_some, key (-1) (Or.inr rfl)]
  · simp [valueFor, seenFrom, h]

example : (⟨0, 0, 0⟩ : Pose).yaw = 0 := rfl

/-- **C139, violated.** An ego that looks along the y axis and has an entity 15 m ahead: the place seen
from the ego is within the first ellipse (20 m by 10 m) and its value is 3, but the value used is 4. -/
theorem C139_longitudinal_violated :
    ∃ ego entity : Pose, (seenFrom ego entity) = (15, 0) ∧
      selected sample "b.".toList (seenFrom ego entity).1 (seenFrom ego entity).2 "distance.mean".toList = some 3 ∧
      valueFor sample "b.".toList ego entity "distance.mean".toList = some 4 := by
  have hs : seenFrom ⟨0, 0, Real.pi / 2⟩ ⟨0, 15, 0⟩ = (15, 0) := by
    simp [seenFrom]
  refine ⟨⟨0, 0, Real.pi / 2⟩, ⟨0, 15, 0⟩, hs, ?_, ?_⟩
  · rw [hs, sample_selected]
    have h1 : Real.sqrt ((15 / 2) ^ 2 + 0 ^ 2) < 10 := by rw [hypot_lt]; norm_num
    simp only [pick, if_pos h1]
  · unfold valueFor
    rw [sample_selected]
    have h1 : ¬ Real.sqrt (((0 : ℝ) - 0) / 2 * ((0 - 0) / 2) + (15 - 0) * (15 - 0)) < 10 := by
      have := hypot_lt ((0 - 0) / 2) (15 - 0) 10
      simp only [sq] at this
      rw [this]; norm_num
    have h2 : Real.sqrt (((0 : ℝ) - 0) / 2 * ((0 - 0) / 2) + (15 - 0) * (15 - 0)) < 20 := by
      have := hypot_lt ((0 - 0) / 2) (15 - 0) 20
      simp only [sq] at this
      rw [this]; norm_num
    simp only [pick, sq, if_neg h1, if_pos h2]

/-! ### C140 -/

theorem pieces_cons (c : Char) (p : Text) (hc : c ∉ ['.', '^', '$', '\\', '+', '(', ')', '[', ']', '{', '}', '|']) :
    pieces (c :: p) = (pieces p).map fun ps =>
      (if c = '*' then Piece.star else if c = '?' then .any else .one c) :: ps := by
  simp only [List.mem_cons, List.not_mem_nil, or_false, not_or] at hc
  unfold pieces
  rw [List.mapM_cons]
  have : (if c = '*' then some Piece.star else if c = '?' then some .any else if c = '.' then some .any
      else if c ∈ operators then none else some (.one c)) =
      some (if c = '*' then Piece.star else if c = '?' then .any else .one c) := by
    by_cases h1 : c = '*'
    · simp [h1]
    · by_cases h2 : c = '?'
      · simp [h2]
      · simp [h1, h2, hc, operators]
  rw [this]
  generalize (List.mapM (m := Option) _ p) = o
  cases o <;> rfl

theorem regex_glob (p : Text) (hp : Plain p) :
    ∃ ps, pieces p = some ps ∧ ∀ t, OneLine t → (regex ps t = true ↔ Glob p t) := by
  induction p with
  | nil =>
    refine ⟨[], rfl, ?_⟩
    intro t _
    cases t with
    | nil => simp [regex, Glob.nil]
    | cons d ds => 
      simp only [regex, Bool.false_eq_true, false_iff]
      intro h; cases h
  | cons c p ih =>
    obtain ⟨ps, hps, hrec⟩ := ih (fun d hd => hp d (List.mem_cons_of_mem _ hd))
    have hpc := pieces_cons c p (hp c (by simp))
    rw [hps] at hpc
    refine ⟨_, hpc, ?_⟩
    intro t
    by_cases h1 : c = '*'
    · subst h1
      simp only [if_true]
      induction t with
      | nil =>
        intro ht
        rw [regex, hrec [] ht]
        constructor
        · exact .none
        · intro h; cases h with
          | none h => exact h
      | cons d ds ihds =>
        intro ht
        have ht' : OneLine ds := ⟨fun h => ht.1 (List.mem_cons_of_mem _ h), fun h => ht.2 (List.mem_cons_of_mem _ h)⟩
        have hd : dot d = true := by
          have h1 : d ≠ '\n' := fun h => ht.1 (by simp [h])
          have h2 : d ≠ '\r' := fun h => ht.2 (by simp [h])
          simp [dot, h1, h2]
        rw [regex, Bool.or_eq_true, hd, Bool.true_and, hrec _ ht, ihds ht']
        constructor
        · rintro (h | h)
          · exact .none h
          · exact .more d h
        · intro h; cases h with
          | one _ h' _ _ => exact absurd rfl h'
          | none h => exact Or.inl h
          | more _ h => exact Or.inr h
    · by_cases h2 : c = '?'
      · subst h2
        simp only [if_neg h1, if_true]
        intro ht
        cases t with
        | nil =>
          simp only [regex, Bool.false_eq_true, false_iff]
          intro h; cases h
        | cons d ds =>
          have ht' : OneLine ds := ⟨fun h => ht.1 (List.mem_cons_of_mem _ h), fun h => ht.2 (List.mem_cons_of_mem _ h)⟩
          have hd : dot d = true := by
            have h1 : d ≠ '\n' := fun h => ht.1 (by simp [h])
            have h2 : d ≠ '\r' := fun h => ht.2 (by simp [h])
            simp [dot, h1, h2]
          rw [regex, hd, Bool.true_and, hrec ds ht']
          constructor
          · exact .any d
          · intro h; cases h with
            | one _ _ h' _ => exact absurd rfl h'
            | any _ h => exact h
      · simp only [if_neg h1, if_neg h2]
        intro ht
        cases t with
        | nil =>
          simp only [regex, Bool.false_eq_true, false_iff]
          intro h; cases h
          · exact h1 rfl
        | cons d ds =>
          have ht' : OneLine ds := ⟨fun h => ht.1 (List.mem_cons_of_mem _ h), fun h => ht.2 (List.mem_cons_of_mem _ h)⟩
          rw [regex, Bool.and_eq_true, hrec ds ht', decide_eq_true_eq]
          constructor
          · rintro ⟨rfl, h⟩
            exact .one c h1 h2 h
          · intro h; cases h with
            | one _ _ _ h => exact ⟨rfl, h⟩
            | any _ h => exact absurd rfl h2
            | none h => exact absurd rfl h1
            | more _ h => exact absurd rfl h1

/-- **C140.** A pattern without special characters matches a text of one line exactly when it does so as
a pattern with the wildcards `*` and `?`. -/
theorem C140_wildcards (other : Text → Text → Bool) (pattern text : Text) (hp : Plain pattern) (ht : OneLine text) :
    matches' other pattern text = true ↔ Glob pattern text := by
  obtain ⟨ps, h1, h2⟩ := regex_glob pattern hp
  rw [matches', h1]
  exact h2 text ht

example : matches' (fun _ _ => false) "c?r*".toList "car12".toList = true :=
  (C140_wildcards _ _ _ (by unfold Plain; decide) (by unfold OneLine; decide)).2
    (.one 'c' (by decide) (by decide) (.any 'a' (.one 'r' (by decide) (by decide) (.more '1' (.more '2' (.none .nil))))))

/-- **C140, violated.** A dot in a pattern stands for any character. -/
theorem C140_dot_violated (other : Text → Text → Bool) :
    matches' other "car.1".toList "carx1".toList = true ∧ ¬ Glob "car.1".toList "carx1".toList := by
  constructor
  · have h : pieces "car.1".toList = some [.one 'c', .one 'a', .one 'r', .any, .one '1'] := by decide
    rw [matches', h]
    simp [regex, dot]
  · intro h
    cases h with
    | one _ _ _ h => cases h with
      | one _ _ _ h => cases h with
        | one _ _ _ h => cases h

/-- The filter of a configuration, as it is declared. -/
def filterOf (p : Parameters) (base config : Text) : Filter :=
  let path := base ++ config ++ ".noise_application_entities.".toList
  ⟨(p.texts (path ++ "types".toList)).getD [], (p.texts (path ++ "subtypes".toList)).getD [],
    (p.texts (path ++ "names".toList)).getD []⟩

/-- **C140.** A configuration with plain patterns applies to the entities that pass its filter: one of
the patterns of each of the three lists has to match. A list that is not declared lets nothing pass. -/
theorem C140_applies (other : Text → Text → Bool) (p : Parameters) (base config : Text) (e : Subject)
    (hp : (filterOf p base config).Plain) (h1 : OneLine e.type) (h2 : OneLine e.subtype) (h3 : OneLine e.name) :
    applies other p base e config = true ↔ (filterOf p base config).Passes e.type e.subtype e.name := by
  obtain ⟨p1, p2, p3⟩ := hp
  unfold applies Filter.Passes
  simp only [Bool.and_eq_true, List.any_eq_true, Parameters.textsOf, and_assoc]
  refine and_congr ?_ (and_congr ?_ ?_)
  · exact exists_congr fun t => and_congr_right fun ht => C140_wildcards other t e.type (p1 t ht) h1
  · exact exists_congr fun t => and_congr_right fun ht => C140_wildcards other t e.subtype (p2 t ht) h2
  · exact exists_congr fun t => and_congr_right fun ht => C140_wildcards other t e.name (p3 t ht) h3

/-- Parameters for the examples: a configuration for all vehicles called `car…`. -/
def filters : Parameters where
  number _ := none
  numbers _ := none
  texts n :=
    if n = "t.noise.v3.cars.noise_application_entities.types".toList then some ["VEHICLE".toList]
    else if n = "t.noise.v3.cars.noise_application_entities.subtypes".toList then some ["*".toList]
    else if n = "t.noise.v3.cars.noise_application_entities.names".toList then some ["car?".toList] else none

example : (filterOf filters "t.noise.v3.".toList "cars".toList).Plain ∧
    (filterOf filters "t.noise.v3.".toList "cars".toList) = ⟨["VEHICLE".toList], ["*".toList], ["car?".toList]⟩ := by
  have : (filterOf filters "t.noise.v3.".toList "cars".toList) = ⟨["VEHICLE".toList], ["*".toList], ["car?".toList]⟩ := by
    unfold filterOf filters; simp
  rw [this]
  refine ⟨⟨?_, ?_, ?_⟩, rfl⟩ <;> (unfold Plain; decide)

theorem mem_takeWhile' {q : Char → Bool} {l : List Char} {c : Char} (h : c ∈ l.takeWhile q) : q c = true := by
  induction l with
  | nil => simp at h
  | cons d ds ih =>
    rw [List.takeWhile_cons] at h
    split at h
    · rename_i hq
      rcases List.mem_cons.1 h with rfl | h
      · exact hq
      · exact ih h
    · simp at h

theorem configName_eq (rest config : Text) (hc : config ≠ []) :
    configName rest = config ↔ '.' ∉ config ∧ ∃ more, rest = config ++ '.' :: more := by
  unfold configName
  constructor
  · split
    · rename_i hd
      intro h
      constructor
      · rw [← h]; intro hm
        have := mem_takeWhile' hm
        simp at this
      · have h2 := List.takeWhile_append_dropWhile (p := fun c => c != '.') (l := rest)
        rw [h] at h2
        cases hdw : rest.dropWhile (· != '.') with
        | nil =>
          rw [hdw, List.append_nil] at h2
          rw [← h2] at hd
          rw [← h] at hd
          have := mem_takeWhile' hd
          simp at this
        | cons d ds =>
          have hne : rest.dropWhile (· != '.') ≠ [] := by rw [hdw]; simp
          have := List.head_dropWhile_not (fun c => c != '.') (l := rest) hne
          simp only [hdw, List.head_cons] at this
          have hd' : d = '.' := by simpa using this
          refine ⟨ds, ?_⟩
          rw [← h2, hdw, hd']
    · intro h; exact absurd h.symm hc
  · rintro ⟨hn, more, rfl⟩
    rw [if_pos (by simp)]
    rw [List.takeWhile_append_of_pos]
    · simp
    · intro c hm
      have : c ≠ '.' := fun h => hn (h ▸ hm)
      simpa using this

theorem after_eq (base name rest : Text) : after base name = some rest ↔ name = base ++ rest := by
  unfold after
  constructor
  · split
    · rename_i h
      intro h'
      obtain ⟨t, ht⟩ := List.isPrefixOf_iff_prefix.1 h
      simp only [Option.some.injEq] at h'
      rw [← h', ← ht]; simp
    · intro h; cases h
  · rintro rfl
    rw [if_pos (List.isPrefixOf_iff_prefix.2 ⟨rest, rfl⟩)]
    simp

theorem belongs_iff (base config parameter : Text) :
    Belongs base config parameter ↔ ∃ rest, after base parameter = some rest ∧ config ≠ [] ∧ configName rest = config := by
  constructor
  · rintro ⟨hc, hd, rest, rfl⟩
    exact ⟨config ++ '.' :: rest, (after_eq _ _ _).2 (by simp), hc, (configName_eq _ _ hc).2 ⟨hd, rest, rfl⟩⟩
  · rintro ⟨rest, h1, hc, h2⟩
    obtain ⟨hd, more, rfl⟩ := (configName_eq _ _ hc).1 h2
    refine ⟨hc, hd, more, ?_⟩
    rw [(after_eq _ _ _).1 h1]; simp

theorem belongs_unique {base c1 c2 parameter : Text} (h1 : Belongs base c1 parameter) (h2 : Belongs base c2 parameter) :
    c1 = c2 := by
  obtain ⟨r1, ha, _, hb⟩ := (belongs_iff _ _ _).1 h1
  obtain ⟨r2, hc, _, hd⟩ := (belongs_iff _ _ _).1 h2
  rw [ha] at hc; cases hc
  rw [← hb, ← hd]

theorem candidate_iff (other : Text → Text → Bool) (p : Parameters) (base : Text) (e : Subject) (parameter : Text) :
    candidate other p base e parameter = true ↔
      ∃ config, Belongs base config parameter ∧ applies other p base e config = true := by
  constructor
  · intro h
    unfold candidate at h
    cases ha : after base parameter with
    | none => rw [ha] at h; simp at h
    | some rest =>
      rw [ha] at h
      simp only at h
      split at h
      · rename_i hne
        exact ⟨configName rest, (belongs_iff _ _ _).2 ⟨rest, ha, hne, rfl⟩, h⟩
      · cases h
  · rintro ⟨config, hb, happ⟩
    obtain ⟨rest, ha, hc, hn⟩ := (belongs_iff _ _ _).1 hb
    unfold candidate
    rw [ha]
    simp only
    rw [hn, if_pos hc]; exact happ

/-- **C140.** The configuration chosen for an entity is declared, applies to it, and is that of the
first parameter, in the order in which they are listed, of which that is true. -/
theorem C140_first (other : Text → Text → Bool) (p : Parameters) (declared : List Text) (topic version : Text)
    (e : Subject) (config : Text) (hc : config ≠ [])
    (h : configFor other p declared (basePath topic version) e = config) :
    let base := topic ++ ".noise.".toList ++ version ++ ".".toList
    applies other p base e config = true ∧ ∃ before parameter later, declared = before ++ parameter :: later ∧
      Belongs base config parameter ∧
      ∀ c, ∀ q ∈ before, Belongs base c q → applies other p base e c = false := by
  show let base := basePath topic version; _
  intro base
  unfold configFor at h
  cases hf : declared.find? (candidate other p base e) with
  | none => simp only [base] at hf; rw [hf] at h; exact absurd h.symm hc
  | some parameter =>
    have hf' := hf
    simp only [base] at hf'
    rw [hf'] at h
    simp only at h
    obtain ⟨hcand, before, later, hd, hbefore⟩ := List.find?_eq_some_iff_append.1 hf
    obtain ⟨c, hb, happ⟩ := (candidate_iff _ _ _ _ _).1 hcand
    obtain ⟨rest, ha, hne, hn⟩ := (belongs_iff _ _ _).1 hb
    simp only [base] at ha
    rw [ha] at h
    simp only [Option.getD_some] at h
    have hcc : c = config := by rw [← hn, h]
    subst hcc
    refine ⟨happ, before, parameter, later, hd, hb, ?_⟩
    intro c' q hq hbq
    have := hbefore q hq
    cases happ' : applies other p base e c' with
    | false => exact happ'
    | true =>
      have hc' : candidate other p base e q = true := (candidate_iff _ _ _ _ _).2 ⟨c', hbq, happ'⟩
      rw [hc'] at this
      cases this

/-- **C140.** No configuration is chosen exactly when none that is declared applies. -/
theorem C140_none (other : Text → Text → Bool) (p : Parameters) (declared : List Text) (topic version : Text)
    (e : Subject) :
    let base := topic ++ ".noise.".toList ++ version ++ ".".toList
    configFor other p declared (basePath topic version) e = [] ↔
      ∀ config, ∀ parameter ∈ declared, Belongs base config parameter → applies other p base e config = false := by
  intro base
  have hbase : base = basePath topic version := rfl
  unfold configFor
  cases hf : declared.find? (candidate other p base e) with
  | none =>
    rw [← hbase, hf]
    simp only [true_iff]
    intro config parameter hp hb
    have hn := List.find?_eq_none.1 hf parameter hp
    cases happ : applies other p base e config with
    | false => rfl
    | true => exact absurd ((candidate_iff _ _ _ _ _).2 ⟨config, hb, happ⟩) hn
  | some parameter =>
    rw [← hbase, hf]
    obtain ⟨hcand, before, later, hd, _⟩ := List.find?_eq_some_iff_append.1 hf
    obtain ⟨c, hb, happ⟩ := (candidate_iff _ _ _ _ _).1 hcand
    obtain ⟨rest, ha, hne, hn⟩ := (belongs_iff _ _ _).1 hb
    simp only [ha, Option.getD_some, hn]
    constructor
    · intro h; exact absurd h hne
    · intro h
      have := h c parameter (by rw [hd]; simp) hb
      rw [this] at happ; cases happ

/-- **C140.** If one configuration only applies to the entity, it is chosen, in whatever order the
parameters are listed. -/
theorem C140_only (other : Text → Text → Bool) (p : Parameters) (declared : List Text) (topic version : Text)
    (e : Subject) (config parameter : Text) :
    let base := topic ++ ".noise.".toList ++ version ++ ".".toList
    parameter ∈ declared → Belongs base config parameter → applies other p base e config = true →
    (∀ c, applies other p base e c = true → c = config) →
    configFor other p declared (basePath topic version) e = config := by
  intro base hm hb happ honly
  by_cases hne : configFor other p declared (basePath topic version) e = []
  · have := (C140_none other p declared topic version e).1 hne config parameter hm hb
    rw [this] at happ; cases happ
  · exact honly _ (C140_first other p declared topic version e _ hne rfl).1

example : configFor (fun _ _ => false) filters
    ["t.noise.v3.cars.noise_application_entities.types".toList] (basePath "t".toList "v3".toList)
    ⟨"VEHICLE".toList, "CAR".toList, "car1".toList⟩ = "cars".toList := by
  have hb : basePath "t".toList "v3".toList = "t.noise.v3.".toList := by decide
  have ha : applies (fun _ _ => false) filters "t.noise.v3.".toList ⟨"VEHICLE".toList, "CAR".toList, "car1".toList⟩ "cars".toList = true := by
    rw [C140_applies]
    · have : (filterOf filters "t.noise.v3.".toList "cars".toList) = ⟨["VEHICLE".toList], ["*".toList], ["car?".toList]⟩ := by
        unfold filterOf filters; simp
      rw [this]
      refine ⟨⟨_, List.mem_singleton.2 rfl, ?_⟩, ⟨_, List.mem_singleton.2 rfl, ?_⟩, ⟨_, List.mem_singleton.2 rfl, ?_⟩⟩
      · repeat (first | exact .nil | refine .one _ (by decide) (by decide) ?_)
      · exact .more _ (.more _ (.more _ (.none .nil)))
      · exact .one _ (by decide) (by decide) (.one _ (by decide) (by decide) (.one _ (by decide) (by decide) (.any _ .nil)))
    · have : (filterOf filters "t.noise.v3.".toList "cars".toList) = ⟨["VEHICLE".toList], ["*".toList], ["car?".toList]⟩ := by
        unfold filterOf filters; simp
      rw [this]
      refine ⟨?_, ?_, ?_⟩ <;> (unfold Plain; decide)
    all_goals (unfold OneLine; decide)
  have haft : after "t.noise.v3.".toList "t.noise.v3.cars.noise_application_entities.types".toList =
      some "cars.noise_application_entities.types".toList := by decide
  have hn : configName "cars.noise_application_entities.types".toList = "cars".toList := by decide
  rw [hb]
  unfold configFor
  have hc : candidate (fun _ _ => false) filters "t.noise.v3.".toList ⟨"VEHICLE".toList, "CAR".toList, "car1".toList⟩
      "t.noise.v3.cars.noise_application_entities.types".toList = true := by
    unfold candidate; rw [haft]; simp only; rw [hn, ha]; simp
  simp only [List.find?_cons, hc, haft, Option.getD_some, hn]

end Verif.Sensing
