import Verif.Scope.Spec
namespace Verif.Scope
variable {Obj : Type}

/-- Outer frames come before, unnamed inner frames after a frame. -/
structure WF (s : Store Obj) : Prop where
  outer : ∀ (f : Nat) (fr : Frame Obj) (o : Nat), s[f]? = some fr → fr.outer = some o → o < f
  unnamed : ∀ (f : Nat) (fr : Frame Obj) (c : Nat), s[f]? = some fr → c ∈ fr.unnamed → f < c ∧ c < s.length

theorem WF.initial : WF (Store.initial : Store Obj) := by
  constructor
  · intro f fr o h
    cases f with
    | zero => simp only [Store.initial, List.getElem?_cons_zero, Option.some.injEq] at h; subst h; simp
    | succ f => simp [Store.initial] at h
  · intro f fr c h
    cases f with
    | zero => simp only [Store.initial, List.getElem?_cons_zero, Option.some.injEq] at h; subst h; simp
    | succ f => simp [Store.initial] at h

theorem WF.newFrame {s : Store Obj} (h : WF s) {o : Nat} (ho : o < s.length) (n : String) :
    WF (s.newFrame o n) := by
  have get : ∀ (f : Nat) (fr : Frame Obj), (s.newFrame o n)[f]? = some fr →
      (f = s.length ∧ fr.outer = some o ∧ fr.unnamed = []) ∨
      ∃ fr', s[f]? = some fr' ∧ fr.outer = fr'.outer ∧ f < s.length ∧
        ∀ c, c ∈ fr.unnamed → c ∈ fr'.unnamed ∨ c = s.length := by
    intro f fr hf
    simp only [Store.newFrame] at hf
    by_cases hl : f < s.length
    · rw [List.getElem?_append_left (by simpa using hl), List.getElem?_modify] at hf
      right
      cases hs : s[f]? with
      | none => rw [hs] at hf; cases hf
      | some fr' =>
        rw [hs] at hf
        simp only [Option.map_eq_map, Option.map_some, Option.some.injEq] at hf
        refine ⟨fr', rfl, ?_, hl, ?_⟩
        · subst hf; split
          · split <;> rfl
          · rfl
        · intro c hc
          subst hf
          split at hc
          · split at hc
            · simpa using hc
            · exact Or.inl hc
          · exact Or.inl hc
    · rw [List.getElem?_append_right (by simpa using hl)] at hf
      left
      have := (List.getElem?_eq_some_iff.1 hf).1
      simp only [List.length_modify, List.length_singleton] at this hf
      have hfl : f = s.length := by omega
      subst hfl
      simp only [Nat.sub_self, List.getElem?_cons_zero, Option.some.injEq] at hf
      subst hf; exact ⟨rfl, rfl, rfl⟩
  have len : (s.newFrame o n).length = s.length + 1 := by simp [Store.newFrame]
  constructor
  · intro f fr o' hf ho'
    rcases get f fr hf with ⟨rfl, h1, -⟩ | ⟨fr', h1, h2, -, -⟩
    · rw [h1] at ho'; cases ho'; exact ho
    · exact h.outer f fr' o' h1 (h2 ▸ ho')
  · intro f fr c hf hc
    rw [len]
    rcases get f fr hf with ⟨rfl, -, h1⟩ | ⟨fr', h1, -, hl, h2⟩
    · rw [h1] at hc; cases hc
    · rcases h2 c hc with h3 | rfl
      · have := h.unnamed f fr' c h1 h3; omega
      · omega

theorem WF.define {s : Store Obj} (h : WF s) (f : Nat) (n : String) (o : Obj) : WF (s.define f n o) := by
  have get : ∀ (g : Nat) (fr : Frame Obj), (s.define f n o)[g]? = some fr →
      ∃ fr' : Frame Obj, s[g]? = some fr' ∧ fr.outer = fr'.outer ∧ fr.unnamed = fr'.unnamed := by
    intro g fr hg
    simp only [Store.define, List.getElem?_modify] at hg
    cases hs : s[g]? with
    | none => rw [hs] at hg; cases hg
    | some fr' =>
      rw [hs] at hg
      simp only [Option.map_eq_map, Option.map_some, Option.some.injEq] at hg
      refine ⟨fr', rfl, ?_⟩
      subst hg; split <;> exact ⟨rfl, rfl⟩
  have len : (s.define f n o).length = s.length := by simp [Store.define]
  constructor
  · intro g fr o' hg ho
    obtain ⟨fr', h1, h2, -⟩ := get g fr hg
    exact h.outer g fr' o' h1 (h2 ▸ ho)
  · intro g fr c hg hc
    obtain ⟨fr', h1, -, h2⟩ := get g fr hg
    rw [len]; exact h.unnamed g fr' c h1 (h2 ▸ hc)

theorem WF.build (ops : List (Op Obj)) : WF (build ops) := by
  have : ∀ s : Store Obj, WF s → WF (ops.foldl Op.apply s) := by
    induction ops with
    | nil => exact fun s h => h
    | cons o ops ih =>
      intro s h
      refine ih _ ?_
      cases o with
      | newFrame o n =>
        simp only [Op.apply]; split
        · rename_i ho; exact h.newFrame ho n
        · exact h
      | define f n o => exact h.define f n o
  exact this _ WF.initial

theorem anonymous_range {s : Store Obj} (h : WF s) {f : Nat} (hf : f < s.length) (k : Nat) :
    ∀ g ∈ anonymous s f k, f + k ≤ g ∧ g < s.length := by
  induction k with
  | zero => intro g hg; simp only [anonymous, List.mem_singleton] at hg; subst hg; exact ⟨by omega, hf⟩
  | succ k ih =>
    intro g hg
    simp only [anonymous, List.mem_flatMap] at hg
    obtain ⟨p, hp, hg⟩ := hg
    have := ih p hp
    cases hs : s[p]? with
    | none => rw [hs] at hg; cases hg
    | some fr =>
      rw [hs] at hg
      have := h.unnamed p fr g hs hg
      omega

theorem anonymous_nil {s : Store Obj} (h : WF s) {f : Nat} (hf : f < s.length) {k : Nat}
    (hk : s.length ≤ k) : anonymous s f k = [] := by
  rw [List.eq_nil_iff_forall_not_mem]
  intro g hg
  have := anonymous_range h hf k g hg
  omega

theorem objects_anonymous (s : Store Obj) (is : Obj → Bool) (name : String) (e : Nat) (k : Nat) :
    objects s is name (anonymous s e k) = visible s is name e k := by
  simp only [objects, visible, List.filter_flatMap]
  congr 1
  funext g
  cases hs : s[g]? with
  | none => simp
  | some fr =>
    simp only [Option.map_some, Option.getD_some, List.filter_map, List.filter_filter]
    congr 1
    congr 1
    funext v
    simp [Bool.and_comm]

theorem descend_anonymous (s : Store Obj) (e : Nat) (k : Nat) :
    descend s (anonymous s e k) = anonymous s e (k + 1) := by
  simp only [descend, anonymous]
  congr 1
  funext g
  cases s[g]? <;> rfl

/-- What `find` makes of the declarations at the least depth. -/
def verdict : List Obj → Result Obj
  | [o] => .found o
  | _ => .ambiguous

theorem anonymous_nil_succ {s : Store Obj} {f : Nat} {k : Nat} (h : anonymous s f k = []) (j : Nat) :
    anonymous s f (k + j) = [] := by
  induction j with
  | zero => exact h
  | succ j ih => show (anonymous s f (k + j)).flatMap _ = []; rw [ih]; rfl

theorem bfs_spec (s : Store Obj) (is : Obj → Bool) (name : String) (e : Nat) (fuel k : Nat) :
    (bfs s is name fuel (anonymous s e k) = none ∧ ∀ j, k ≤ j → j < k + fuel → visible s is name e j = []) ∨
    ∃ j, k ≤ j ∧ visible s is name e j ≠ [] ∧ (∀ i, k ≤ i → i < j → visible s is name e i = []) ∧
      bfs s is name fuel (anonymous s e k) = some (verdict (visible s is name e j)) := by
  induction fuel generalizing k with
  | zero => left; exact ⟨rfl, fun j h1 h2 => by omega⟩
  | succ fuel ih =>
    cases hl : anonymous s e k with
    | nil =>
      left
      refine ⟨rfl, fun j h1 h2 => ?_⟩
      have : anonymous s e j = [] := by
        have := anonymous_nil_succ hl (j - k); rwa [show k + (j - k) = j by omega] at this
      simp [visible, this]
    | cons a l =>
      rw [← hl]
      have step : bfs s is name (fuel + 1) (anonymous s e k) =
          match visible s is name e k with
          | [] => bfs s is name fuel (anonymous s e (k + 1))
          | [o] => some (.found o)
          | _ => some .ambiguous := by
        rw [← objects_anonymous, ← descend_anonymous]
        rw [hl]; rfl
      rw [step]
      cases hv : visible s is name e k with
      | nil =>
        rcases ih (k + 1) with ⟨h1, h2⟩ | ⟨j, h1, h2, h3, h4⟩
        · left
          refine ⟨h1, fun j hj1 hj2 => ?_⟩
          by_cases hjk : j = k
          · rw [hjk]; exact hv
          · exact h2 j (by omega) (by omega)
        · right
          refine ⟨j, by omega, h2, fun i hi1 hi2 => ?_, h4⟩
          by_cases hik : i = k
          · rw [hik]; exact hv
          · exact h3 i (by omega) hi2
      | cons o os =>
        right
        refine ⟨k, Nat.le_refl _, by rw [hv]; simp, fun i h1 h2 => by omega, ?_⟩
        rw [hv]
        cases os with
        | nil => rfl
        | cons o' os => rfl

/-- The number of frames is enough fuel. -/
theorem bfs_fuel {s : Store Obj} (h : WF s) {is : Obj → Bool} {name : String} {e : Nat}
    (he : e < s.length) (hb : bfs s is name (s.length + 1) [e] = none) (k : Nat) :
    visible s is name e k = [] := by
  rcases bfs_spec s is name e (s.length + 1) 0 with ⟨-, h2⟩ | ⟨j, -, -, -, h4⟩
  · by_cases hk : k < s.length
    · exact h2 k (by omega) (by omega)
    · simp [visible, anonymous_nil h he (by omega : s.length ≤ k)]
  · rw [show anonymous s e 0 = [e] from rfl, hb] at h4; cases h4

theorem find_spec {s : Store Obj} (h : WF s) (is : Obj → Bool) (name : String) (f : Nat) (hf : f < s.length) :
    (find s is name f = .missing ∧ ∀ j e, encloses s j f = some e → ∀ k, visible s is name e k = []) ∨
    ∃ e k, Nearest s is name f e k ∧ find s is name f = verdict (visible s is name e k) := by
  induction f using Nat.strongRecOn with
  | _ f ih =>
    unfold find
    rcases bfs_spec s is name f (s.length + 1) 0 with ⟨h1, -⟩ | ⟨k, -, h2, h3, h4⟩
    · rw [show anonymous s f 0 = [f] from rfl] at h1
      have hv := bfs_fuel h hf h1
      rw [h1]
      dsimp only
      cases ho : s[f]?.bind (·.outer) with
      | none =>
        left
        refine ⟨rfl, fun j e he k => ?_⟩
        cases j with
        | zero => cases he; exact hv k
        | succ j => simp only [encloses, ho, Option.bind_none] at he; cases he
      | some o =>
        have hof : o < f := by
          cases hs : s[f]? with
          | none => rw [hs] at ho; cases ho
          | some fr => rw [hs] at ho; exact h.outer f fr o hs ho
        dsimp only
        rw [if_pos hof]
        rcases ih o hof (by omega) with ⟨h5, h6⟩ | ⟨e, k, ⟨j, h6, h7, h8, h9⟩, h10⟩
        · left
          refine ⟨h5, fun j e he k => ?_⟩
          cases j with
          | zero => cases he; exact hv k
          | succ j =>
            simp only [encloses, ho, Option.bind_some] at he
            exact h6 j e he k
        · right
          refine ⟨e, k, ⟨j + 1, ?_, h7, h8, ?_⟩, h10⟩
          · simp only [encloses, ho, Option.bind_some]; exact h6
          · intro j' hj' e' he' k'
            cases j' with
            | zero => cases he'; exact hv k'
            | succ j' =>
              simp only [encloses, ho, Option.bind_some] at he'
              exact h9 j' (by omega) e' he' k'
    · right
      rw [show anonymous s f 0 = [f] from rfl] at h4
      refine ⟨f, k, ⟨0, rfl, h2, fun k' hk' => h3 k' (by omega) hk', fun j' hj' => absurd hj' (Nat.not_lt_zero _)⟩, ?_⟩
      rw [h4]

theorem nearest_unique {s : Store Obj} {is : Obj → Bool} {name : String} {f e e' : Nat} {k k' : Nat}
    (h : Nearest s is name f e k) (h' : Nearest s is name f e' k') : e = e' ∧ k = k' := by
  obtain ⟨j, h1, h2, h3, h4⟩ := h
  obtain ⟨j', h1', h2', h3', h4'⟩ := h'
  have hj : j = j' := by
    rcases Nat.lt_trichotomy j j' with hlt | heq | hgt
    · exact absurd (h4' j hlt e h1 k) h2
    · exact heq
    · exact absurd (h4 j' hgt e' h1' k') h2'
  subst hj
  rw [h1] at h1'; cases h1'
  refine ⟨rfl, ?_⟩
  rcases Nat.lt_trichotomy k k' with hlt | heq | hgt
  · exact absurd (h3' k hlt) h2
  · exact heq
  · exact absurd (h3 k' hgt) h2'

end Verif.Scope
