import Verif.Behavior.Root
import Verif.Behavior.Spec
/-
One frame of a vehicle, from the chain of actions.
-/
namespace Verif.Behavior

open Spec

variable {K : Type} [Field K] [LinearOrder K] {B C E : Type}

theorem again_stop (tree : Tick E) (w : World E) (h : w.current ≠ some .root) : again tree w = some (.ok w) := by
  rw [again]; simp [h]

theorem again_go (tree : Tick E) (w : World E) (h : w.current = some .root) : again tree w = update tree w := by
  rw [again, update]; simp [h]

theorem at_current {w : World E} {q : Node} (h : At w q) : w.current = some q ∧ q ≠ .root := by
  obtain ⟨_, ⟨rfl, _, _, h, _⟩ | ⟨rfl, _, _, _, _, h, _⟩ | ⟨_, _, _, ⟨rfl, _, _, _, h, _⟩ | ⟨_, hq, _, _, _, h, _⟩⟩⟩ := h
  · exact ⟨h, by simp⟩
  · exact ⟨h, by simp⟩
  · exact ⟨h, by simp⟩
  · exact ⟨h, (ne_rootNames q hq).1⟩

theorem update_error {act : Node → Act E} {w : World E} {p : Option Node} (h : Holds w p) {f : Fault} (hc : chain act (items p) p.isSome w.core = .error f) :
    update (vehicleTree act) w = some (.error f) := by
  have := tick_ends act w p h
  rw [hc] at this
  rw [update, show vehicleTree act w = _ from this]

theorem update_running {act : Node → Act E} {w : World E} {p : Option Node} (h : Holds w p) {q : Node} {c : Core E}
    (hc : chain act (items p) p.isSome w.core = .ok (some (q, true), c)) :
    ∃ w', update (vehicleTree act) w = some (.ok w') ∧ w'.core = c ∧ At w' q := by
  have := tick_ends act w p h
  rw [hc] at this
  obtain ⟨w', h1, h2, h3⟩ := this
  refine ⟨w', ?_, h2, h3⟩
  rw [update, h1]
  have := at_current h3
  exact again_stop _ _ (by rw [this.1]; simpa using this.2)

theorem update_success {act : Node → Act E} {w : World E} {p : Option Node} (h : Holds w p) {q : Node} {c : Core E}
    (hc : chain act (items p) p.isSome w.core = .ok (some (q, false), c)) (hr : c.current ≠ some .root) :
    ∃ w', update (vehicleTree act) w = some (.ok w') ∧ w'.core = c ∧ Quiet w' := by
  have := tick_ends act w p h
  rw [hc] at this
  obtain ⟨w', h1, h2, h3⟩ := this
  refine ⟨w', ?_, h2, h3⟩
  rw [update, h1]
  exact again_stop _ _ (by rw [← h2] at hr; exact hr)

theorem update_success_root {act : Node → Act E} {w : World E} {p : Option Node} (h : Holds w p) {q : Node} {c : Core E}
    (hc : chain act (items p) p.isSome w.core = .ok (some (q, false), c)) (hr : c.current = some .root) :
    ∃ w', update (vehicleTree act) w = update (vehicleTree act) w' ∧ w'.core = c ∧ Quiet w' := by
  have := tick_ends act w p h
  rw [hc] at this
  obtain ⟨w', h1, h2, h3⟩ := this
  refine ⟨w', ?_, h2, h3⟩
  have : update (vehicleTree act) w = again (vehicleTree act) w' := by rw [update, h1]
  rw [this]
  exact again_go _ _ (by rw [← h2] at hr; exact hr)

theorem update_none {act : Node → Act E} {w : World E} {p : Option Node} (h : Holds w p) {c : Core E}
    (hc : chain act (items p) p.isSome w.core = .ok (none, c)) :
    ∃ w', update (vehicleTree act) w = update (vehicleTree act) w' ∧ w'.core = { c with current := some .root } ∧ Quiet w' := by
  have := tick_ends act w p h
  rw [hc] at this
  obtain ⟨w', h1, h2, h3⟩ := this
  refine ⟨w', ?_, h2, h3⟩
  have : update (vehicleTree act) w = again (vehicleTree act) w' := by rw [update, h1]
  rw [this]
  exact again_go _ _ (congrArg Core.current h2)

/-- Every frame leaves the tree running one action, or none. -/
theorem again_holds (act : Node → Act E) (w : World E) (r : Except Fault (World E)) (h : again (vehicleTree act) w = some r) :
    (∃ p, Holds w p) → ∀ w', r = .ok w' → ∃ p, Holds w' p := by
  refine again.partial_correctness (vehicleTree act) (fun w r => (∃ p, Holds w p) → ∀ w', r = .ok w' → ∃ p, Holds w' p) ?_ w r h
  intro f ih w r hw hp w' hr
  split at hw
  · split at hw
    · simp only [Option.some.injEq] at hw; subst hw; cases hr
    · rename_i s v htree
      refine ih v r hw ?_ w' hr
      obtain ⟨p, hp⟩ := hp
      have := tick_ends act w p hp
      generalize chain act (items p) p.isSome w.core = o at this
      rw [htree] at this
      rcases o with e | ⟨_ | ⟨q, _ | _⟩, c⟩
      · cases this
      · obtain ⟨x, h1, _, h3⟩ := this
        simp only [Except.ok.injEq, Prod.mk.injEq] at h1
        obtain ⟨_, rfl⟩ := h1
        exact ⟨none, h3⟩
      · obtain ⟨x, h1, _, h3⟩ := this
        simp only [Except.ok.injEq, Prod.mk.injEq] at h1
        obtain ⟨_, rfl⟩ := h1
        exact ⟨none, h3⟩
      · obtain ⟨x, h1, _, h3⟩ := this
        simp only [Except.ok.injEq, Prod.mk.injEq] at h1
        obtain ⟨_, rfl⟩ := h1
        exact ⟨some q, h3⟩
  · simp only [Option.some.injEq] at hw
    subst hw
    simp only [Except.ok.injEq] at hr
    subst hr
    exact hp

theorem update_again (act : Node → Act E) (w : World E) (h : w.current = some .root) : update (vehicleTree act) w = again (vehicleTree act) w := (again_go _ _ h).symm

theorem update_holds (act : Node → Act E) (w w' : World E) (p : Option Node) (hp : Holds w p) (h : update (vehicleTree act) w = some (.ok w')) : ∃ p, Holds w' p := by
  have ht := tick_ends act w p hp
  rw [update] at h
  generalize chain act (items p) p.isSome w.core = o at ht
  rcases htree : vehicleTree act w with f | ⟨s, v⟩
  · rw [htree] at h; cases h
  · rw [htree] at h ht
    refine again_holds act v _ h ?_ w' rfl
    rcases o with e | ⟨_ | ⟨q, _ | _⟩, c⟩
    · cases ht
    · obtain ⟨x, h1, _, h3⟩ := ht
      simp only [Except.ok.injEq, Prod.mk.injEq] at h1
      obtain ⟨_, rfl⟩ := h1
      exact ⟨none, h3⟩
    · obtain ⟨x, h1, _, h3⟩ := ht
      simp only [Except.ok.injEq, Prod.mk.injEq] at h1
      obtain ⟨_, rfl⟩ := h1
      exact ⟨none, h3⟩
    · obtain ⟨x, h1, _, h3⟩ := ht
      simp only [Except.ok.injEq, Prod.mk.injEq] at h1
      obtain ⟨_, rfl⟩ := h1
      exact ⟨some q, h3⟩

theorem holds_other {w : World E} {p : Option Node} (h : Holds w p) (r : Request) (e : E) : Holds { w with request := r, entity := e } p := by
  cases p with
  | none => exact h
  | some q => exact h

theorem reachable_holds {env : Env B C K} {w : World (Car B C K)} (h : Reachable env w) : ∃ p, Holds w p := by
  induction h with
  | spawn b l => exact ⟨none, by simp [Holds, Quiet, QuietTrajectory, QuietLane, World.init]⟩
  | frame _ hf ih => exact ih.elim fun p hp => update_holds _ _ _ p hp hf
  | request r _ ih => exact ih.imp fun p hp => holds_other hp r _
  | change b _ ih => exact ih.imp fun p hp => holds_other hp _ _

/-! ### Frames of vehicles that only follow their lane -/

/-- The action fails and leaves the vehicle alone, or moves it toward a speed with the property `P` and ends the tick. -/
def Drives (env : Env B C K) (P : K → Prop) (b : B) (n : Node) : Prop := ∀ r (c : Car B C K), plain r = true → c.body = b →
  ∃ v, P v ∧ (∀ f, env.move v b = .error f → vehicleActs env n r c = .error f) ∧
    ∀ b', env.move v b = .ok b' → ∃ s, (s = .running ∨ s = .success) ∧ vehicleActs env n r c = .ok (s, { c with body := b' })

def Fails (env : Env B C K) (b : B) (n : Node) : Prop := ∀ r (c : Car B C K), plain r = true → c.body = b → vehicleActs env n r c = .ok (.failure, c)

def Tries (env : Env B C K) (P : K → Prop) (b : B) (n : Node) : Prop := ∀ r (c : Car B C K), plain r = true → c.body = b →
  vehicleActs env n r c = .ok (.failure, c) ∨
  ∃ v, P v ∧ (∀ f, env.move v b = .error f → vehicleActs env n r c = .error f) ∧
    ∀ b', env.move v b = .ok b' → ∃ s, (s = .running ∨ s = .success) ∧ vehicleActs env n r c = .ok (s, { c with body := b' })

/-- Every action may be tried. -/
def Good (env : Env B C K) (P : K → Prop) (b : B) : List Node → Prop
  | [] => True
  | n :: ns => Drives env P b n ∨ (Tries env P b n ∧ Good env P b ns)

/-- One of the actions moves the vehicle. -/
def Sure (env : Env B C K) (P : K → Prop) (b : B) : List Node → Prop
  | [] => False
  | n :: ns => Drives env P b n ∨ (Tries env P b n ∧ Sure env P b ns)

theorem Sure.good {env : Env B C K} {P : K → Prop} {b : B} : ∀ {ns : List Node}, Sure env P b ns → Good env P b ns
  | [], h => h.elim
  | _ :: _, Or.inl h => Or.inl h
  | _ :: _, Or.inr ⟨h, h'⟩ => Or.inr ⟨h, h'.good⟩

/-- The chain moves the vehicle once. -/
def OneMove (env : Env B C K) (P : K → Prop) (b : B) (o : Except Fault (Option (Node × Bool) × Core (Car B C K))) : Prop :=
  ∃ v, P v ∧ (∀ f, env.move v b = .error f → o = .error f) ∧
    ∀ b', env.move v b = .ok b' → ∃ q s d, o = .ok (some (q, s), d) ∧ d.entity.body = b' ∧ d.current ≠ some .root

/-- The actions among the items. -/
def leavesOf : List Item → List Node
  | [] => []
  | .mark _ :: is => leavesOf is
  | .leaf n :: is => n :: leavesOf is

theorem chain_moves (env : Env B C K) (P : K → Prop) (b : B) : ∀ (is : List Item) (started : Bool) (c : Core (Car B C K)),
    Item.mark .root ∉ is → Item.leaf .root ∉ is → plain c.request = true → c.entity.body = b → c.current ≠ some .root → Good env P b (leavesOf is) →
    OneMove env P b (chain (vehicleActs env) is started c) ∨
      (¬ Sure env P b (leavesOf is) ∧ ∃ d, chain (vehicleActs env) is started c = .ok (none, d) ∧ plain d.request = true ∧ d.entity = c.entity)
  | [], started, c, _, _, hp, _, _, _ => Or.inr ⟨id, c, rfl, hp, rfl⟩
  | .mark n :: is, started, c, hm, hl, hp, hb, hr, hg => by
    have hn : n ≠ .root := by rintro rfl; simp at hm
    have := chain_moves env P b is false { c with current := some n } (fun h => hm (by simp [h])) (fun h => hl (by simp [h])) hp hb (by simpa using hn) hg
    simpa only [chain, leavesOf] using this
  | .leaf n :: is, started, c, hm, hl, hp, hb, hr, hg => by
    have hn : n ≠ .root := by rintro rfl; simp at hl
    have key : ∀ v, P v → (∀ f, env.move v b = .error f → vehicleActs env n c.request c.entity = .error f) →
        (∀ b', env.move v b = .ok b' → ∃ s, (s = .running ∨ s = .success) ∧ vehicleActs env n c.request c.entity = .ok (s, { c.entity with body := b' })) →
        OneMove env P b (chain (vehicleActs env) (.leaf n :: is) started c) := by
      intro v hv h1 h2
      refine ⟨v, hv, fun f hf => ?_, fun b' hb' => ?_⟩
      · simp only [chain, h1 f hf]
      · obtain ⟨s, hs, h⟩ := h2 b' hb'
        rcases hs with rfl | rfl
        · refine ⟨n, true, c.run n started { c.entity with body := b' }, by simp only [chain, h], rfl, ?_⟩
          simp only [Core.run]
          split
          · exact hr
          · simpa using hn
        · exact ⟨n, false, c.succeed { c.entity with body := b' }, by simp only [chain, h], rfl, hr⟩
    simp only [leavesOf, Good] at hg
    rcases hg with hd | ⟨ht, hg⟩
    · obtain ⟨v, hv, h1, h2⟩ := hd c.request c.entity hp hb
      exact Or.inl (key v hv h1 h2)
    · rcases ht c.request c.entity hp hb with hf | ⟨v, hv, h1, h2⟩
      · have hreq : plain (c.fail n c.entity).request = true := by
          simp only [Core.fail]
          split
          · rfl
          · exact hp
        have := chain_moves env P b is false (c.fail n c.entity) (fun h => hm (by simp [h])) (fun h => hl (by simp [h])) hreq hb (by simpa [Core.fail] using hn) hg
        simp only [chain, hf]
        rcases this with h | ⟨h, d, h1, h2, h3⟩
        · exact Or.inl h
        · by_cases hdr : Drives env P b n
          · obtain ⟨v, hv, h1, h2⟩ := hdr c.request c.entity hp hb
            have := key v hv h1 h2
            simp only [chain, hf] at this
            exact Or.inl this
          · refine Or.inr ⟨?_, d, h1, h2, h3⟩
            simp only [leavesOf, Sure, not_or, not_and]
            exact ⟨hdr, fun _ => h⟩
      · exact Or.inl (key v hv h1 h2)

/-- The actions of the lane sequence, in their order. -/
def laneLeaves : List Node := .followLane :: selectorNames

theorem plain_reset {env : Env B C K} {r : Request} (h : plain r = true) (c : Car B C K) :
    vehicleActs env .laneChange r c = .ok (.failure, { c with lane := { c.lane with curve := none, s := 0 } }) ∧
      vehicleActs env .followTrajectory r c = .ok (.failure, c) := by
  cases r <;> simp [plain] at h <;> simp [vehicleActs, laneChange, followTrajectory]

theorem oneMove_frame {env : Env B C K} {P : K → Prop} {w : World (Car B C K)} {p : Option Node} (h : Holds w p)
    (ho : OneMove env P w.entity.body (chain (vehicleActs env) (items p) p.isSome w.core)) : ∃ v, P v ∧ Moves env w v := by
  obtain ⟨v, hv, h1, h2⟩ := ho
  refine ⟨v, hv, fun f hf => update_error h (h1 f hf), fun b hb => ?_⟩
  obtain ⟨q, s, d, h3, h4, h5⟩ := h2 b hb
  cases s with
  | true =>
    obtain ⟨w', h6, h7, _⟩ := update_running h h3
    exact ⟨w', h6, by rw [← h4, ← h7]; rfl⟩
  | false =>
    obtain ⟨w', h6, h7, _⟩ := update_success h h3 h5
    exact ⟨w', h6, by rw [← h4, ← h7]; rfl⟩

theorem part_marks : Item.mark .root ∉ lanePart ++ [.mark .laneSequence] ∧ Item.leaf .root ∉ lanePart ++ [.mark .laneSequence] ∧
    leavesOf (lanePart ++ [.mark .laneSequence]) = laneLeaves := by
  exact ⟨by decide, by decide, rfl⟩

/-- A frame that tries the whole lane sequence. -/
theorem whole_frame {env : Env B C K} {P : K → Prop} {w : World (Car B C K)} {p : Option Node} (h : Holds w p) (hp : plain w.request = true)
    (hs : Sure env P w.entity.body laneLeaves) (hq : p = none ∨ p = some .laneChange ∨ p = some .followTrajectory ∨ p = some .followLane) :
    ∃ v, P v ∧ Moves env w v := by
  have lane : ∀ (started : Bool) (c : Core (Car B C K)), plain c.request = true → c.entity.body = w.entity.body → c.current ≠ some .root →
      OneMove env P w.entity.body (chain (vehicleActs env) (lanePart ++ [.mark .laneSequence]) started c) := by
    intro started c h1 h2 h3
    rcases chain_moves env P w.entity.body _ started c part_marks.1 part_marks.2.1 h1 h2 h3 (by rw [part_marks.2.2]; exact hs.good) with h | ⟨h, _⟩
    · exact h
    · exact absurd (by rw [part_marks.2.2]; exact hs) h
  have traj : ∀ (started : Bool) (c : Core (Car B C K)), plain c.request = true → c.entity.body = w.entity.body →
      OneMove env P w.entity.body (chain (vehicleActs env) trajectoryPart started c) := by
    intro started c h1 h2
    simp only [trajectoryPart, chain, (plain_reset h1 c.entity).2]
    refine lane false _ ?_ h2 (by simp)
    simp only [Core.fail]
    split
    · rfl
    · exact h1
  have change : ∀ (started : Bool) (c : Core (Car B C K)), plain c.request = true → c.entity.body = w.entity.body →
      OneMove env P w.entity.body (chain (vehicleActs env) (.leaf .laneChange :: .mark .trajectorySequence :: trajectoryPart) started c) := by
    intro started c h1 h2
    rw [chain, (plain_reset h1 c.entity).1]
    simp only
    rw [chain]
    refine traj false _ ?_ h2
    simp only [Core.fail]
    split
    · rfl
    · exact h1
  refine oneMove_frame h ?_
  rcases hq with rfl | rfl | rfl | rfl
  · have := change false { w.core with current := some .root } hp rfl
    rw [items, chain]
    exact this
  · exact change true w.core hp rfl
  · exact traj true w.core hp rfl
  · refine lane true w.core hp rfl ?_
    have := at_current h
    rw [show w.core.current = w.current from rfl, this.1]
    simp

/-- Frames of vehicles that only follow their lane. -/
theorem frame_moves {env : Env B C K} {P : K → Prop} {w : World (Car B C K)} (h : Reachable env w) (hp : Plain w)
    (hs : Sure env P w.entity.body laneLeaves)
    (hg : ∀ q ∈ selectorNames, w.current = some q → Good env P w.entity.body (selectorNames.drop (selectorNames.idxOf q))) :
    ∃ v, P v ∧ Moves env w v := by
  have hp : plain w.request = true := by rcases hp with h | h <;> simp [plain, h]
  obtain ⟨p, hh⟩ := reachable_holds h
  by_cases hq : p = none ∨ p = some .laneChange ∨ p = some .followTrajectory ∨ p = some .followLane
  · exact whole_frame hh hp hs hq
  · cases p with
    | none => simp at hq
    | some q =>
      have hcur := at_current hh
      have hsel : q ∈ selectorNames := by
        obtain ⟨_, ⟨rfl, _⟩ | ⟨rfl, _⟩ | ⟨_, _, _, ⟨rfl, _⟩ | ⟨_, hq', _⟩⟩⟩ := hh
        · simp at hq
        · simp at hq
        · simp at hq
        · exact hq'
      have hleaves : leavesOf (items (some q)) = selectorNames.drop (selectorNames.idxOf q) ∧ Item.mark .root ∉ items (some q) ∧ Item.leaf .root ∉ items (some q) := by
        simp only [selectorNames, List.mem_cons, List.not_mem_nil, or_false] at hsel
        rcases hsel with rfl | rfl | rfl | rfl | rfl | rfl <;>
          exact ⟨rfl, by decide, by decide⟩
      rcases chain_moves env P w.entity.body (items (some q)) true w.core hleaves.2.1 hleaves.2.2 hp rfl
          (by rw [show w.core.current = w.current from rfl, hcur.1]; simpa using hcur.2) (by rw [hleaves.1]; exact hg q hsel hcur.1) with h | ⟨_, d, h1, h2, h3⟩
      · exact oneMove_frame hh h
      · obtain ⟨w', h4, h5, h6⟩ := update_none hh h1
        have hb : w'.entity = w.entity := (congrArg Core.entity h5).trans h3
        have hr : w'.request = d.request := congrArg Core.request h5
        obtain ⟨v, hv, h7, h8⟩ := whole_frame (p := none) (w := w') h6 (by rw [hr]; exact h2) (by rw [hb]; exact hs) (Or.inl rfl)
        rw [hb] at h7 h8
        exact ⟨v, hv, fun f hf => h4.trans (h7 f hf), fun b hb => (h8 b hb).imp fun _ ⟨h, h'⟩ => ⟨h4.trans h, h'⟩⟩

end Verif.Behavior
