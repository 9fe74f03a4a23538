import Verif.Signal.Steps
/-
The visits of a controller that refers to no other one.
-/
namespace Verif.Signal
open Light
set_option linter.unusedSectionVars false

variable {T : Type} [Time T] {m : RoadMap} {prog : List (Decl T)}

/-- What an evaluation does to the current phase of a controller without reference. -/
def react (d : Decl T) (x : Option Nat × T) (now : T) : Option Nat × T :=
  match x.1 with
  | none => (d.begin, now)
  | some q =>
    match d.phases[q]? with
    | none => x
    | some p => if Time.le p.duration (Time.sub now x.2) then (circularNext d.phases.length (some q), now) else x

def place (c : Ctl T) : Option Nat × T := (c.current, c.startedAt)

theorem changePhaseTo_place {k d next now} {w : World T}
    (h : (changePhaseTo m prog k d next now w).2 = .ok) (i : Nat) :
    place ((changePhaseTo m prog k d next now w).1.ctl i) =
      if i = k then (next, now) else place (w.ctl i) := by
  have := congrArg Prod.fst (changePhaseTo_core h)
  simp only [core] at this
  rw [this]
  split
  · rename_i e; subst e; simp [place, changed_self]
  · rename_i e; simp [place, changed_other e]

theorem evaluate_place {k d now} {w : World T} (h : (evaluate m prog k d now w).2 = .ok) (i : Nat)
    (hr : d.reference = none ∨ i ≠ k) :
    place ((evaluate m prog k d now w).1.ctl i) =
      if i = k then react d (place (w.ctl i)) now else place (w.ctl i) := by
  have hplace : ∀ i, place (upd w.ctl k (shouldBegin d (w.ctl k) now).2 i) = place (w.ctl i) := by
    intro i
    simp only [upd]; split
    · rename_i e; subst e; simp only [shouldBegin]; split
      · rfl
      · split
        · split <;> rfl
        · rfl
    · rfl
  unfold evaluate at h ⊢
  dsimp only at h ⊢
  by_cases h1 : (shouldBegin d (w.ctl k) now).1 = true
  · rw [if_pos h1] at h ⊢
    rw [changePhaseTo_place h i]
    split
    · rename_i e; subst e
      have hr' : d.reference = none := by rcases hr with h | h; exact h; exact absurd rfl h
      simp only [shouldBegin, hr', Option.isNone_iff_eq_none] at h1
      simp [react, place, h1]
    · exact hplace i
  · rw [if_neg h1] at h ⊢
    have e1 := shouldBegin_false (by simpa using h1)
    rw [e1, upd_self] at h ⊢
    by_cases h2 : exceeded d (w.ctl k) now = true
    · rw [if_pos h2] at h ⊢
      rw [changePhaseTo_place h i]
      split
      · rename_i e; subst e
        cases hc : (w.ctl i).current with
        | none => simp [exceeded, Decl.phase?, hc] at h2
        | some q =>
          simp only [exceeded, Decl.phase?, hc, Option.bind_some] at h2
          cases hp : d.phases[q]? with
          | none => rw [hp] at h2; cases h2
          | some p => rw [hp] at h2; dsimp only at h2; simp [react, place, hc, hp, h2]
      · rfl
    · rw [if_neg h2] at h ⊢
      split
      · rename_i e; subst e
        have hr' : d.reference = none := by rcases hr with h | h; exact h; exact absurd rfl h
        cases hc : (w.ctl i).current with
        | none => simp [shouldBegin, hr', hc] at h1
        | some q =>
          simp only [exceeded, Decl.phase?, hc, Option.bind_some] at h2
          cases hp : d.phases[q]? with
          | none => simp [react, place, hc, hp]
          | some p => rw [hp] at h2; dsimp only at h2; simp [react, place, hc, hp, h2]
      · rfl

theorem evaluateFrom_place {now : T} (ds : List (Decl T)) (k : Nat) {w : World T}
    (h : (evaluateFrom m prog now k ds w).2 = .ok) (i : Nat) {d : Decl T}
    (hd : ∀ e, ds[i - k]? = some e → k ≤ i → e = d) (hr : d.reference = none) :
    place ((evaluateFrom m prog now k ds w).1.ctl i) =
      if k ≤ i ∧ i < k + ds.length then react d (place (w.ctl i)) now else place (w.ctl i) := by
  induction ds generalizing k w with
  | nil => simp only [evaluateFrom, List.length_nil]; rw [if_neg (by omega)]
  | cons e ds ih =>
    unfold evaluateFrom at h ⊢
    dsimp only at h ⊢
    by_cases h1 : (evaluate m prog k e now w).2 = .ok
    · rw [if_pos h1] at h ⊢
      rw [ih (k + 1) h (by
        intro e' he hk
        refine hd e' ?_ (by omega)
        rw [show i - k = (i - (k + 1)) + 1 by omega, List.getElem?_cons_succ]; exact he)]
      by_cases hik : i = k
      · subst hik
        have hed : e = d := hd e (by simp) (Nat.le_refl _)
        subst hed
        rw [if_neg (by omega), evaluate_place h1 i (Or.inl hr), if_pos rfl, if_pos]
        exact ⟨Nat.le_refl _, by simp⟩
      · rw [evaluate_place h1 i (Or.inr hik), if_neg hik]
        simp only [List.length_cons]
        by_cases hc : k + 1 ≤ i ∧ i < k + 1 + ds.length
        · rw [if_pos hc, if_pos (by omega)]
        · rw [if_neg hc, if_neg (by omega)]
    · rw [if_neg h1] at h; exact absurd h h1

def Cyc (d : Decl T) (dur : Nat → T) (ts : List T) (x : Option Nat × T) : Prop :=
  (ts = [] ∧ x.1 = none) ∨ ∃ e a, Visits d.phases.length dur ts e ∧
    e.getLast? = some a ∧ x.1 = some ((e.length - 1) % d.phases.length) ∧ ts[a]? = some x.2

theorem getElem?_snoc_lt {α} {l : List α} {x : α} {k : Nat} {y : α} (h : (l ++ [x])[k]? = some y)
    (hk : k < l.length) : l[k]? = some y := by
  rwa [List.getElem?_append_left hk] at h

theorem Cyc.tick {d : Decl T} (hne : d.phases ≠ []) {dur : Nat → T}
    (hdur : ∀ q p, d.phases[q]? = some p → dur q = p.duration) {ts : List T} {x : Option Nat × T}
    (h : Cyc d dur ts x) (now : T) : Cyc d dur (ts ++ [now]) (react d x now) := by
  have hlen : 0 < d.phases.length := List.length_pos_iff.2 hne
  right
  rcases h with ⟨rfl, hx⟩ | ⟨e, a, hv, ha, hx, hs⟩
  · refine ⟨[0], 0, ⟨rfl, by simp, by simp, ?_, ?_⟩, rfl, ?_, ?_⟩
    · intro j a b x y _ hb; simp at hb
    · intro j a k x y ha hk _ _ hy
      have h1 : k < 1 := by
        have := (List.getElem?_eq_some_iff.1 hy).1; simpa using this
      omega
    · simp [react, hx, begin_some hne]
    · simp [react, hx]
  · have hq : (e.length - 1) % d.phases.length < d.phases.length := Nat.mod_lt _ hlen
    have hp : d.phases[(e.length - 1) % d.phases.length]? = some d.phases[(e.length - 1) % d.phases.length] :=
      List.getElem?_eq_getElem hq
    have hdu := hdur _ _ hp
    have hepos : 0 < e.length := by
      rcases e with _ | ⟨b, e⟩
      · cases ha
      · simp
    have hae : e[e.length - 1]? = some a := by rw [← List.getLast?_eq_getElem?]; exact ha
    have halt : a < ts.length := hv.bound a (List.mem_of_getElem? hae)
    -- the entry times in the extended list
    have hts : ∀ k y, k < ts.length → (ts ++ [now])[k]? = some y → ts[k]? = some y :=
      fun k y hk hy => getElem?_snoc_lt hy hk
    by_cases hel : Time.le (dur ((e.length - 1) % d.phases.length)) (Time.sub now x.2) = true
    · refine ⟨e ++ [ts.length], ts.length, ⟨?_, ?_, ?_, ?_, ?_⟩, by simp, ?_, ?_⟩
      · rw [List.getElem?_append_left hepos]; exact hv.first
      · rw [List.pairwise_append]
        exact ⟨hv.increasing, by simp, fun k hk j hj => by
          simp only [List.mem_singleton] at hj; subst hj; exact hv.bound k hk⟩
      · intro k hk
        simp only [List.mem_append, List.mem_singleton, List.length_append, List.length_singleton] at hk ⊢
        rcases hk with hk | rfl
        · have := hv.bound k hk; omega
        · omega
      · intro j a' b x' y ha' hb hx' hy
        have hjb := (List.getElem?_eq_some_iff.1 hb).1
        simp only [List.length_append, List.length_singleton] at hjb
        have ha2 := getElem?_snoc_lt ha' (by omega)
        by_cases hj : j + 1 < e.length
        · have hb2 := getElem?_snoc_lt hb hj
          exact hv.leave j a' b x' y ha2 hb2
            (hts _ _ (hv.bound _ (List.mem_of_getElem? ha2)) hx')
            (hts _ _ (hv.bound _ (List.mem_of_getElem? hb2)) hy)
        · have hj' : j = e.length - 1 := by omega
          subst hj'
          have hb3 : b = ts.length := by
            rw [show e.length - 1 + 1 = e.length by omega, List.getElem?_concat_length] at hb
            exact (Option.some.inj hb).symm
          subst hb3
          rw [List.getElem?_concat_length] at hy
          cases hy
          rw [hae] at ha2; cases ha2
          have := hts _ _ halt hx'
          rw [hs] at this; cases this
          exact hel
      · intro j a' k x' y ha' hk hb hx' hy
        have hkl := (List.getElem?_eq_some_iff.1 hy).1
        simp only [List.length_append, List.length_singleton] at hkl
        by_cases hj : j < e.length
        · have ha2 := getElem?_snoc_lt ha' hj
          by_cases hj1 : j + 1 < e.length
          · have hbe : e[j + 1]? = some e[j + 1] := List.getElem?_eq_getElem hj1
            have hkb := hb e[j + 1] (by rw [List.getElem?_append_left hj1]; exact hbe)
            have hkl' : k < ts.length := by
              have := hv.bound _ (List.mem_of_getElem? hbe); omega
            refine hv.stay j a' k x' y ha2 hk ?_ (hts _ _ (hv.bound _ (List.mem_of_getElem? ha2)) hx') (hts _ _ hkl' hy)
            intro b hb'; exact hb b (by rw [List.getElem?_append_left hj1]; exact hb')
          · have hkb := hb ts.length (by
              rw [show j + 1 = e.length by omega]; exact List.getElem?_concat_length)
            refine hv.stay j a' k x' y ha2 hk ?_ (hts _ _ (hv.bound _ (List.mem_of_getElem? ha2)) hx') (hts _ _ hkb hy)
            intro b hb'
            have := (List.getElem?_eq_some_iff.1 hb').1
            omega
        · have hje : j = e.length := by
            have := (List.getElem?_eq_some_iff.1 ha').1
            simp only [List.length_append, List.length_singleton] at this
            omega
          subst hje
          rw [List.getElem?_concat_length] at ha'
          cases ha'
          omega
      · simp only [react, hx, hp, ← hdu, hel, if_true, circularNext_eq hq, Option.some.injEq, List.length_append,
          List.length_singleton, Nat.add_sub_cancel, Nat.mod_add_mod]
        rw [show e.length - 1 + 1 = e.length by omega]
      · simp only [react, hx, hp, ← hdu, hel, if_true]
        exact List.getElem?_concat_length
    · refine ⟨e, a, ⟨hv.first, hv.increasing, ?_, ?_, ?_⟩, ha, ?_, ?_⟩
      · intro k hk; have := hv.bound k hk; simp; omega
      · intro j a' b x' y ha' hb hx' hy
        exact hv.leave j a' b x' y ha' hb
          (hts _ _ (hv.bound _ (List.mem_of_getElem? ha')) hx')
          (hts _ _ (hv.bound _ (List.mem_of_getElem? hb)) hy)
      · intro j a' k x' y ha' hk hb hx' hy
        have hx2 := hts _ _ (hv.bound _ (List.mem_of_getElem? ha')) hx'
        by_cases hkl : k < ts.length
        · exact hv.stay j a' k x' y ha' hk hb hx2 (hts _ _ hkl hy)
        · have hke : k = ts.length := by
            have := (List.getElem?_eq_some_iff.1 hy).1
            simp only [List.length_append, List.length_singleton] at this
            omega
          subst hke
          rw [List.getElem?_concat_length] at hy
          cases hy
          have hj : j = e.length - 1 := by
            by_cases hj1 : j + 1 < e.length
            · have hbe : e[j + 1]? = some e[j + 1] := List.getElem?_eq_getElem hj1
              have := hb _ hbe
              have := hv.bound _ (List.mem_of_getElem? hbe)
              omega
            · have := (List.getElem?_eq_some_iff.1 ha').1
              omega
          subst hj
          rw [hae] at ha'; cases ha'
          rw [hs] at hx2; cases hx2
          simpa using hel
      · simp only [react, hx, hp, ← hdu, hel, Bool.false_eq_true, if_false]
      · simp only [react, hx, hp, ← hdu, hel, Bool.false_eq_true, if_false]
        rw [List.getElem?_append_left halt]; exact hs

theorem apply_place_other {i : Nat} {o : Op T} {w : World T} (h : (o.apply m prog w).2 = .ok)
    (hf : Free i o) (ht : tickTimes [o] = []) :
    place ((o.apply m prog w).1.ctl i) = place (w.ctl i) := by
  cases o with
  | tick t => simp [tickTimes] at ht
  | lights l => rfl
  | action k name now =>
    simp only [Op.apply, changePhaseByName] at h ⊢
    revert h
    split
    · intro h; cases h
    · split
      · intro h; cases h
      · intro h
        rw [changePhaseTo_place h i]
        have hk : k ≠ i := hf
        rw [if_neg (fun hc => hk hc.symm)]

theorem run_cyc {i : Nat} {d : Decl T} (hd : prog[i]? = some d) (hr : d.reference = none)
    (hne : d.phases ≠ []) {dur : Nat → T}
    (hdur : ∀ q p, d.phases[q]? = some p → dur q = p.duration) {os : List (Op T)}
    (hf : ∀ o ∈ os, Free i o) {ts : List T} {w w' : World T} (h : Cyc d dur ts (place (w.ctl i)))
    (hw : run m prog os w = some w') : Cyc d dur (ts ++ tickTimes os) (place (w'.ctl i)) := by
  induction os generalizing ts w with
  | nil => cases hw; simpa [tickTimes] using h
  | cons o os ih =>
    simp only [run] at hw
    split at hw
    · rename_i ho
      have hf' := fun o ho => hf o (List.mem_cons_of_mem _ ho)
      cases o with
      | tick now =>
        have hi := (List.getElem?_eq_some_iff.1 hd).1
        have e : place ((evaluateFrom m prog now 0 prog w).1.ctl i) = react d (place (w.ctl i)) now := by
          rw [evaluateFrom_place prog 0 ho i (d := d) (by
            intro e he _; simp only [Nat.sub_zero] at he; rw [hd] at he; exact (Option.some.inj he).symm) hr,
            if_pos ⟨Nat.zero_le _, by omega⟩]
        have := ih hf' (ts := ts ++ [now]) (by simp only [Op.apply]; rw [e]; exact h.tick hne hdur now) hw
        simpa [tickTimes] using this
      | lights l => exact ih hf' (w := { w with lights := l }) h hw
      | action k name now =>
        have := ih hf' (ts := ts) (by
          rw [apply_place_other ho (hf _ List.mem_cons_self) rfl]; exact h) hw
        simpa [tickTimes] using this
    · cases hw

end Verif.Signal
