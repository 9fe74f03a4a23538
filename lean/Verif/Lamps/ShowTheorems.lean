import Verif.Lamps.AskTheorems
/-
C241: the markers of traffic lights.
-/
namespace Verif.Lamps
open Verif.Light

variable {K P : Type}

theorem code_lt {c : Color} (h : c ∈ placed) : c.code < 4 := by
  simp only [placed, List.mem_cons, List.not_mem_nil, or_false] at h
  rcases h with rfl | rfl | rfl <;> decide

theorem number_eq (w c : Nat) (h : c < 4) : w <<< 2 ||| c = 4 * w + c := by
  rw [← Nat.shiftLeft_add_eq_or_of_lt h, Nat.shiftLeft_eq]; omega

theorem number_inj (w w' c c' : Nat) (h : c < 4) (h' : c' < 4)
    (e : (((w <<< 2) ||| c : Nat) : Int).bmod (2 ^ 32) = (((w' <<< 2) ||| c' : Nat) : Int).bmod (2 ^ 32)) :
    w % 1073741824 = w' % 1073741824 ∧ c = c' := by
  rw [number_eq w c h, number_eq w' c' h'] at e
  have e' : ((4 * w + c : Nat) : Int) % 4294967296 = ((4 * w' + c' : Nat) : Int) % 4294967296 := by
    have h3 := Int.bmod_emod (x := ((4 * w + c : Nat) : Int)) (m := 2 ^ 32)
    have h4 := Int.bmod_emod (x := ((4 * w' + c' : Nat) : Int)) (m := 2 ^ 32)
    rw [e, h4] at h3
    have h5 : ((2 ^ 32 : Nat) : Int) = 4294967296 := by decide
    rw [h5] at h3
    exact h3.symm
  omega

/-- Numbers of markers tell the lights apart if their ids differ below 2^30. -/
theorem markId_inj {w w' : Id} {c c' : Color} (h : c ∈ placed) (h' : c' ∈ placed) (e : markId w c = markId w' c') :
    w % 1073741824 = w' % 1073741824 ∧ c = c' := by
  obtain ⟨h1, h2⟩ := number_inj w w' c.code c'.code (code_lt h) (code_lt h') e
  exact ⟨h1, Color.code_inj h2⟩

/-- Whether a light has a round bulb of a colour. -/
def lit (bulbs : List Bulb) (c : Color) : Bool := bulbs.any fun b => isCircle b && b.color = c

theorem isCircle_iff (b : Bulb) : isCircle b = true ↔ b.shape = .circle := by
  unfold isCircle
  cases b.shape <;> decide

theorem lit_iff (bulbs : List Bulb) (c : Color) : lit bulbs c = true ↔ ∃ b ∈ bulbs, b.color = c ∧ b.shape = .circle := by
  simp only [lit, List.any_eq_true, Bool.and_eq_true, isCircle_iff, decide_eq_true_eq]
  constructor <;> rintro ⟨b, h1, h2, h3⟩ <;> exact ⟨b, h1, h3, h2⟩

theorem mem_drawn (pos : Color → Option P) (bulbs : List Bulb) (c : Color) (p : P) :
    (c, p) ∈ drawn pos bulbs ↔ c ∈ placed ∧ pos c = some p ∧ lit bulbs c = true := by
  simp only [drawn, List.mem_filterMap, lit_iff]
  constructor
  · rintro ⟨b, hb, h⟩
    split at h
    · rename_i hc
      simp only [place] at h
      split at h
      · rename_i hp
        simp only [Option.map_eq_some_iff, Prod.mk.injEq] at h
        obtain ⟨q, h1, rfl, rfl⟩ := h
        exact ⟨hp, h1, b, hb, rfl, (isCircle_iff b).1 hc⟩
      · simp at h
    · cases h
  · rintro ⟨h1, h2, b, hb, rfl, hs⟩
    exact ⟨b, hb, by rw [if_pos ((isCircle_iff b).2 hs)]; simp [place, h1, h2]⟩

theorem mem_draw (pos : Color → Option P) (w : Id) (bulbs : List Bulb) (k : Mark P) :
    k ∈ draw pos w bulbs ↔ ∃ c p, c ∈ placed ∧ pos c = some p ∧ k = .add (markId w c) ⟨p, c, lit bulbs c⟩ := by
  simp only [draw, List.mem_append, List.mem_map, List.mem_filterMap]
  constructor
  · rintro (⟨⟨c, p⟩, h, rfl⟩ | ⟨c, hc, h⟩)
    · obtain ⟨h1, h2, h3⟩ := (mem_drawn ..).1 h
      exact ⟨c, p, h1, h2, by rw [h3]⟩
    · split at h
      · rename_i p hp
        split at h
        · rename_i hn
          cases h
          refine ⟨c, p, hc, hp, ?_⟩
          have : lit bulbs c = false := by
            cases hl : lit bulbs c
            · rfl
            · exact absurd (⟨(c, p), (mem_drawn ..).2 ⟨hc, hp, hl⟩, rfl⟩ : ∃ x, x ∈ drawn pos bulbs ∧ x.1 = c) hn
          rw [this]
        · cases h
      · cases h
  · rintro ⟨c, p, hc, hp, rfl⟩
    cases hl : lit bulbs c
    · refine Or.inr ⟨c, hc, ?_⟩
      rw [hp]
      dsimp only
      rw [if_pos]
      rintro ⟨⟨c', p'⟩, h, rfl⟩
      have := ((mem_drawn ..).1 h).2.2
      rw [hl] at this; cases this
    · exact Or.inl ⟨(c, p), (mem_drawn ..).2 ⟨hc, hp, hl⟩, rfl⟩

/-- Markers that agree where their numbers do are all there in the end. -/
theorem see_adds (ks : List (Mark P)) (hadd : ∀ k ∈ ks, ∃ z x, k = .add z x)
    (hcons : ∀ z x x', Mark.add z x ∈ ks → Mark.add z x' ∈ ks → x = x') (d : Screen P) (z : Int) (x : Sphere P) :
    ks.foldl see d z = some x ↔ Mark.add z x ∈ ks ∨ (d z = some x ∧ ∀ x', Mark.add z x' ∉ ks) := by
  induction ks generalizing d with
  | nil => simp
  | cons k ks ih =>
    obtain ⟨z0, x0, rfl⟩ := hadd k (by simp)
    rw [List.foldl_cons, ih (fun k hk => hadd k (by simp [hk]))
      (fun z x x' h h' => hcons z x x' (by simp [h]) (by simp [h']))]
    simp only [see, List.mem_cons, Mark.add.injEq]
    by_cases hz : z = z0
    · subst hz
      simp only [if_true, true_and, Option.some.injEq]
      constructor
      · rintro (h | ⟨rfl, h⟩)
        · exact Or.inl (Or.inr h)
        · exact Or.inl (Or.inl rfl)
      · rintro ((rfl | h) | ⟨-, h⟩)
        · by_cases hm : ∃ x', Mark.add z x' ∈ ks
          · obtain ⟨x', hx'⟩ := hm
            have := hcons z x x' (by simp) (by simp [hx'])
            subst this
            exact Or.inl hx'
          · exact Or.inr ⟨rfl, fun x' hx' => hm ⟨x', hx'⟩⟩
        · exact Or.inl h
        · exact absurd (Or.inl rfl) (h x0)
    · simp [hz]

theorem mem_all (pos : Id → Color → Option P) (r : Reg K) (k : Mark P) :
    k ∈ (r.keys.flatMap fun w => draw (pos w) w (r.lamp w).bulbs) ↔
      ∃ w ∈ r.keys, ∃ c p, c ∈ placed ∧ pos w c = some p ∧ k = .add (markId w c) ⟨p, c, lit (r.lamp w).bulbs c⟩ := by
  simp only [List.mem_flatMap, mem_draw]

/-- **C241, partial.** Whatever was shown before, after an update of the lights of one kind a viewer has on the screen one
sphere for every light of that kind that was asked for or changed so far and every colour for which the map has a
bulb of it, at its place, opaque if the light has a round bulb of that colour (be it on, off or flashing) and
faint if not, and nothing else.  (Missing: lights whose ids agree below 2^30, and lights of the other kind, see below.) -/
theorem C241_shown_partial (pos : Id → Color → Option P) (us : List (Channel × Reg K)) (ch : Channel) (r : Reg K)
    (hid : ∀ w ∈ r.keys, ∀ w' ∈ r.keys, w % 1073741824 = w' % 1073741824 → w = w') :
    ∃ number : Id → Color → Int,
      (∀ w ∈ r.keys, ∀ w' ∈ r.keys, ∀ c ∈ [Color.green, .yellow, .red], ∀ c' ∈ [Color.green, .yellow, .red],
        number w c = number w' c' → w = w' ∧ c = c') ∧
      ∀ z x, watch pos (us ++ [(ch, r)]) z = some x ↔ ∃ w, IsSphere pos r w x ∧ z = number w x.color := by
  have hinj : ∀ w ∈ r.keys, ∀ w' ∈ r.keys, ∀ c ∈ [Color.green, .yellow, .red], ∀ c' ∈ [Color.green, .yellow, .red],
      markId w c = markId w' c' → w = w' ∧ c = c' := by
    intro w hw w' hw' c hc c' hc' e
    obtain ⟨h1, h2⟩ := markId_inj hc hc' e
    exact ⟨hid w hw w' hw' h1, h2⟩
  refine ⟨markId, hinj, fun z x => ?_⟩
  have e : watch pos (us ++ [(ch, r)]) =
      (r.keys.flatMap fun w => draw (pos w) w (r.lamp w).bulbs).foldl see fun _ => none := by
    simp [watch, markers, changed, see]
  rw [e, see_adds]
  · simp only [reduceCtorEq, false_and, or_false, mem_all, Mark.add.injEq]
    constructor
    · rintro ⟨w, hw, c, p, hc, hp, e1, e2⟩
      refine ⟨w, ⟨hw, ?_, ?_, ?_⟩, ?_⟩
      · rw [e2]; exact hc
      · rw [e2]; exact hp
      · rw [e2]; exact lit_iff _ _
      · rw [e1, e2]
    · rintro ⟨w, ⟨hw, hc, hp, hl⟩, e1⟩
      refine ⟨w, hw, x.color, x.place, hc, hp, e1, ?_⟩
      have : x.bright = lit (r.lamp w).bulbs x.color := by
        rw [Bool.eq_iff_iff, hl, lit_iff]
      rw [← this]
  · intro k hk
    obtain ⟨w, -, c, p, -, -, rfl⟩ := (mem_all ..).1 hk
    exact ⟨_, _, rfl⟩
  · intro z x x' h h'
    obtain ⟨w, hw, c, p, hc, hp, h⟩ := (mem_all ..).1 h
    obtain ⟨w', hw', c', p', hc', hp', h'⟩ := (mem_all ..).1 h'
    simp only [Mark.add.injEq] at h h'
    obtain ⟨rfl, rfl⟩ := hinj w hw w' hw' c hc c' hc' (h.1.symm.trans h'.1)
    rw [hp] at hp'; cases hp'
    rw [h.2, h'.2]

/-- **C241** for lights as operations leave them: the lights shown are those that an operation was about. -/
theorem C241_known (m : RoadMap) [One K] (h : List (Op K)) (w : Id) (pos : Id → Color → Option P) (x : Sphere P)
    (hx : IsSphere pos (after m h) w x) : ∃ o ∈ h, w ∈ o.lights m :=
  ((after_fine m h).2 w).1 hx.1

/-- Light 7 has places for three colours, light 8 for two. -/
def bulbsAt : Id → Color → Option (Nat × Nat) := fun w c => if w = 8 ∧ c = .yellow then none else some (w, c.code)

example : (∀ w ∈ (after (K := ℚ) town [.set 1 "red flashing, green left".toList]).keys,
      ∀ w' ∈ (after (K := ℚ) town [.set 1 "red flashing, green left".toList]).keys, w % 1073741824 = w' % 1073741824 → w = w') ∧
    let d := watch bulbsAt [(.v2i, Reg.empty), (.conventional, after (K := ℚ) town [.set 1 "red flashing, green left".toList])]
    [28, 29, 30, 31, 32, 33, 34].map d =
      [some ⟨(7, 0), .green, false⟩, some ⟨(7, 1), .yellow, false⟩, some ⟨(7, 2), .red, true⟩, none,
       some ⟨(8, 0), .green, false⟩, none, some ⟨(8, 2), .red, true⟩] := by
  decide +kernel

/-- **C241 is false of the code** for lights whose ids agree below 2^30: of two such lights only one is shown. -/
theorem C241_ids_violated : ∃ (m : RoadMap) (h : List (Op ℚ)) (pos : Id → Color → Option ℕ),
    (after m h).keys = [7, 1073741831] ∧ IsSphere pos (after m h) 7 ⟨7, .red, true⟩ ∧
    ∀ z, watch pos [(.conventional, after m h)] z ≠ some ⟨7, .red, true⟩ := by
  refine ⟨⟨fun i => some [i], fun _ => false⟩, [.set 7 "red".toList, .set 1073741831 "green".toList],
    fun w c => if c = .red then some w else none, by decide +kernel, ⟨by decide +kernel, by decide, by decide, by decide +kernel⟩, ?_⟩
  intro z
  have e : watch (fun w c => if c = .red then some w else none) [(Channel.conventional, after (K := ℚ)
      ⟨fun i => some [i], fun _ => false⟩ [.set 7 "red".toList, .set 1073741831 "green".toList])] =
      fun z => if z = 30 then some ⟨1073741831, .red, false⟩ else none := by
    have hm : (markers (fun w c => if c = Color.red then some w else none) (after (K := ℚ)
      ⟨fun i => some [i], fun _ => false⟩ [.set 7 "red".toList, .set 1073741831 "green".toList])).flatten =
      [.deleteAll, .add 30 ⟨7, .red, true⟩, .add 30 ⟨1073741831, .red, false⟩] := by decide +kernel
    simp only [watch, List.flatMap_cons, List.flatMap_nil, List.append_nil, hm, List.foldl_cons, List.foldl_nil]
    funext z
    simp only [see]
    split <;> rfl
  rw [e]
  dsimp only
  split
  · simp
  · simp

/-- **C241 is false of the code** when both kinds of lights are published: a red conventional light, shown as such, is
gone from the screen as soon as the V2I lights (here none) are updated. -/
theorem C241_kinds_violated : ∃ (m : RoadMap) (h : List (Op ℚ)) (pos : Id → Color → Option ℕ),
    IsSphere pos (after m h) 7 ⟨7, .red, true⟩ ∧
    (∃ z, watch pos [(.conventional, after m h)] z = some ⟨7, .red, true⟩) ∧
    ∀ z, watch pos [(.conventional, after m h), (.v2i, after (K := ℚ) m [])] z = none := by
  refine ⟨town, [.set 7 "red".toList], fun w c => if c = .red then some w else none,
    ⟨by decide +kernel, by decide, by decide, by decide +kernel⟩, ⟨30, by decide +kernel⟩, fun z => ?_⟩
  simp [watch, markers, changed, see, after, Reg.empty]

end Verif.Lamps
