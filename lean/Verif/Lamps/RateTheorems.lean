import Verif.Lamps.Spec
import Mathlib.Algebra.Field.Rat
import Mathlib.Data.List.Induction
/-
C242: how often traffic lights are published.
-/
namespace Verif.Lamps

variable {K : Type} [Field K] (good : K → Bool) (cfg : Config K)

theorem run_concat (s : Sys K) (h : List (Event K)) (e : Event K) :
    run good cfg s (h ++ [e]) = (step good cfg (run good cfg s h) e).1 := by simp [run]

omit [Field K] in
theorem lastRate_concat (c : Channel) (h : List (Event K)) (e : Event K) :
    lastRate c (h ++ [e]) = match e with
      | .reset c' r => if c' = c then some r else lastRate c h
      | _ => lastRate c h := by
  unfold lastRate
  cases e with
  | reset c' r => by_cases hc : c' = c <;> simp [hc]
  | _ => simp

omit [Field K] in
theorem framed_concat (h : List (Event K)) (e : Event K) :
    Framed (h ++ [e]) ↔ Framed h ∨ (e = .frame ∧ .start ∈ h) := by
  constructor
  · rintro ⟨a, b, c, hh⟩
    rcases List.eq_nil_or_concat c with rfl | ⟨c, x, rfl⟩
    · right
      have : h ++ [e] = (a ++ .start :: b) ++ [.frame] := by simpa using hh
      obtain ⟨rfl, h2⟩ := List.append_inj' this rfl
      simp only [List.cons.injEq, and_true] at h2
      exact ⟨h2, by simp⟩
    · left
      have : h ++ [e] = (a ++ .start :: b ++ .frame :: c) ++ [x] := by simpa using hh
      obtain ⟨rfl, -⟩ := List.append_inj' this rfl
      exact ⟨a, b, c, rfl⟩
  · rintro (⟨a, b, c, rfl⟩ | ⟨rfl, hs⟩)
    · exact ⟨a, b, c ++ [e], by simp⟩
    · obtain ⟨a, b, rfl⟩ := List.append_of_mem hs
      exact ⟨a, b, [], by simp⟩

theorem started_iff (h : List (Event K)) : (run good cfg Sys.new h).started = true ↔ .start ∈ h := by
  induction h using List.reverseRecOn with
  | nil => simp [run, Sys.new]
  | append_singleton h e ih =>
    rw [run_concat]
    cases e with
    | start => simp [step]
    | frame =>
      simp only [step, startUpdates]
      split
      · split <;> simpa using ih
      · simpa using ih
    | reset c r => cases c <;> simpa [step] using ih
    | call c => simp only [step]; split <;> simpa using ih

/-- No timer was cancelled and kept. -/
def Live (u : Updater K) : Prop := ∀ t, u.timer = some t → t.canceled = false

theorem live_start {u : Updater K} (h : Live u) (r : K) : Live (startTimer good u r).1 := by
  unfold startTimer
  split
  · exact h
  · split
    · intro t ht; simp only [Option.some.injEq] at ht; rw [← ht]
    · intro t ht; cases ht

theorem reset_eq {u : Updater K} (h : Live u) (r : K) :
    resetTimer good u r = if good r then (⟨r, some ⟨1 / r, false⟩⟩, true) else (⟨r, none⟩, false) := by
  unfold resetTimer
  cases ht : u.timer with
  | none => simp only [startTimer, ht]
  | some t => simp [h t ht, startTimer]

theorem live_step {s : Sys K} (h : ∀ c, Live (s.at c)) (e : Event K) : ∀ c, Live ((step good cfg s e).1.at c) := by
  intro c
  cases e with
  | start => cases c <;> [exact h .conventional; exact h .v2i]
  | frame =>
    simp only [step, startUpdates]
    split
    · split
      · cases c
        · exact live_start good (h .conventional) _
        · exact live_start good (h .v2i) _
      · cases c
        · exact live_start good (h .conventional) _
        · exact h .v2i
    · exact h c
  | reset c' r =>
    have : ∀ u : Updater K, Live u → Live (resetTimer good u r).1 := by
      intro u hu
      rw [reset_eq good hu]
      split
      · intro t ht; simp only [Option.some.injEq] at ht; rw [← ht]
      · intro t ht; cases ht
    cases c' <;> cases c
    · exact this _ (h .conventional)
    · exact h .v2i
    · exact h .conventional
    · exact this _ (h .v2i)
  | call c' => simp only [step]; split <;> exact h c

theorem live_run (h : List (Event K)) : ∀ c, Live ((run good cfg Sys.new h).at c) := by
  induction h using List.reverseRecOn with
  | nil => intro c; cases c <;> intro t ht <;> cases ht
  | append_singleton h e ih => rw [run_concat]; exact live_step good cfg ih e

/-- **C242.** If timers can be made of the configured rates and of all that are asked for, then at every time the lights of
a kind are published at the rate that was asked for last, whether before or after they were started; if none was, at the
configured rate from the first frame after the logic of NPCs was started; and before that not at all. -/
theorem C242_rate (hc : good cfg.conv = true) (hv : good cfg.v2i = true) (h : List (Event K))
    (hg : ∀ c r, Event.reset c r ∈ h → good r = true) (c : Channel) :
    (∀ r, lastRate c h = some r → (run good cfg Sys.new h).at c = ⟨r, some ⟨1 / r, false⟩⟩) ∧
    (lastRate c h = none → Framed h → (run good cfg Sys.new h).at c = ⟨cfg.at c, some ⟨1 / cfg.at c, false⟩⟩) ∧
    (lastRate c h = none → ¬ Framed h → ((run good cfg Sys.new h).at c).timer = none) := by
  induction h using List.reverseRecOn with
  | nil =>
    refine ⟨fun r hr => by simp [lastRate] at hr, fun _ hf => ?_, fun _ _ => by cases c <;> rfl⟩
    obtain ⟨a, b, c, hh⟩ := hf
    simp at hh
  | append_singleton h e ih =>
    obtain ⟨i1, i2, i3⟩ := ih fun c r hr => hg c r (by simp [hr])
    rw [run_concat, lastRate_concat, framed_concat]
    have hlive := live_run good cfg h
    have hst := started_iff good cfg h
    generalize run good cfg Sys.new h = s at *
    cases e with
    | start =>
      have : (step good cfg s .start).1.at c = s.at c := by cases c <;> rfl
      rw [this]
      simp only [reduceCtorEq, false_and, or_false]
      exact ⟨i1, i2, i3⟩
    | call c' =>
      have : (step good cfg s (.call c')).1.at c = s.at c := by simp only [step]; split <;> rfl
      rw [this]
      simp only [reduceCtorEq, false_and, or_false]
      exact ⟨i1, i2, i3⟩
    | reset c' r =>
      simp only [reduceCtorEq, false_and, or_false]
      have hr := hg c' r (by simp)
      by_cases hcc : c' = c
      · subst hcc
        have : (step good cfg s (.reset c' r)).1.at c' = ⟨r, some ⟨1 / r, false⟩⟩ := by
          cases c'
          · have := reset_eq good (hlive .conventional) r
            simp only [Sys.at] at this
            simp [step, Sys.at, this, hr]
          · have := reset_eq good (hlive .v2i) r
            simp only [Sys.at] at this
            simp [step, Sys.at, this, hr]
        rw [this]
        simp
      · have : (step good cfg s (.reset c' r)).1.at c = s.at c := by
          cases c' <;> cases c <;> first | rfl | exact absurd rfl hcc
        rw [this]
        simp only [hcc, if_false]
        exact ⟨i1, i2, i3⟩
    | frame =>
      simp only [true_and]
      by_cases hs : s.started = true
      · have hmem := hst.1 hs
        have hone : ∀ u : Updater K, ∀ r, good r = true → (startTimer good u r).2 = true ∧
            (startTimer good u r).1 = match u.timer with | some _ => u | none => ⟨r, some ⟨1 / r, false⟩⟩ := by
          intro u r hr
          unfold startTimer
          cases u.timer <;> simp [hr]
        have : (step good cfg s .frame).1.at c =
            match (s.at c).timer with | some _ => s.at c | none => ⟨cfg.at c, some ⟨1 / cfg.at c, false⟩⟩ := by
          simp only [step, hs, if_true, startUpdates, (hone s.conv _ hc).1]
          cases c
          · exact (hone s.conv _ hc).2
          · exact (hone s.v2i _ hv).2
        rw [this]
        refine ⟨fun r hr => ?_, fun hn _ => ?_, fun _ hf => absurd (Or.inr hmem) hf⟩
        · rw [i1 r hr]
        · by_cases hF : Framed h
          · rw [i2 hn hF]
          · rw [i3 hn hF]
      · have hno : ¬ Event.start ∈ h := fun hh => hs (hst.2 hh)
        have : (step good cfg s .frame).1 = s := by simp [step, hs]
        rw [this]
        simp only [hno, or_false]
        exact ⟨i1, i2, i3⟩

/-- **C242.** Lights of a kind are published only when the timer of that kind is called, and it is called only if
there is one. -/
theorem C242_publish (h : List (Event K)) (e : Event K) (c : Channel) :
    (step good cfg (run good cfg Sys.new h) e).2.2 = some c ↔
      e = .call c ∧ ((run good cfg Sys.new h).at c).timer.isSome := by
  have hlive := live_run good cfg h
  generalize run good cfg Sys.new h = s at *
  cases e with
  | start => simp [step]
  | frame => simp only [step]; split <;> simp
  | reset c' r => cases c' <;> simp [step]
  | call c' =>
    simp only [step, Event.call.injEq]
    cases ht : (s.at c').timer with
    | none =>
      simp only [reduceCtorEq, false_iff, not_and]
      rintro rfl
      simp [ht]
    | some t =>
      have := hlive c' t ht
      simp only [this, Bool.false_eq_true, if_false, Option.some.injEq]
      constructor
      · rintro rfl; exact ⟨rfl, by simp [ht]⟩
      · exact fun h => h.1

/-- **C242.** A rate of which no timer can be made is an error, whatever happened before, and ends the publishing of the
lights of that kind, until there is a frame, which begins it again at the configured rate, or another rate is asked for.
The lights of the other kind are not touched. -/
theorem C242_bad (hc : good cfg.conv = true) (hv : good cfg.v2i = true) (h : List (Event K)) (c : Channel) (r : K)
    (hr : good r = false) :
    (step good cfg (run good cfg Sys.new h) (.reset c r)).2.1 = false ∧
    ((run good cfg Sys.new (h ++ [.reset c r])).at c).timer = none ∧
    (∀ c', c' ≠ c → (run good cfg Sys.new (h ++ [.reset c r])).at c' = (run good cfg Sys.new h).at c') ∧
    (.start ∈ h → (run good cfg Sys.new (h ++ [.reset c r, .frame])).at c = ⟨cfg.at c, some ⟨1 / cfg.at c, false⟩⟩) ∧
    (∀ r', good r' = true → (run good cfg Sys.new (h ++ [.reset c r, .reset c r'])).at c = ⟨r', some ⟨1 / r', false⟩⟩) := by
  have hlive := live_run good cfg h
  have hst := started_iff good cfg h
  have e1 : run good cfg Sys.new (h ++ [.reset c r]) = (step good cfg (run good cfg Sys.new h) (.reset c r)).1 := run_concat ..
  have e2 : ∀ e, run good cfg Sys.new (h ++ [.reset c r, e]) = (step good cfg (step good cfg (run good cfg Sys.new h) (.reset c r)).1 e).1 := by
    intro e; simp [run]
  rw [e1]
  simp only [e2]
  generalize run good cfg Sys.new h = s at *
  have h1 := reset_eq good (hlive .conventional) r
  have h2 := reset_eq good (hlive .v2i) r
  simp only [Sys.at, hr, Bool.false_eq_true, if_false] at h1 h2
  cases c
  · simp only [step, h1]
    refine ⟨trivial, rfl, fun c' hc' => ?_, fun hs => ?_, fun r' hr' => ?_⟩
    · cases c' <;> first | rfl | exact absurd rfl hc'
    · simp only [hst.2 hs, if_true, startUpdates, startTimer, hc]
      rfl
    · simp [resetTimer, startTimer, hr', Sys.at]
  · simp only [step, h2]
    refine ⟨trivial, rfl, fun c' hc' => ?_, fun hs => ?_, fun r' hr' => ?_⟩
    · cases c' <;> first | rfl | exact absurd rfl hc'
    · have : (startTimer good s.conv cfg.conv).2 = true := by unfold startTimer; split <;> simp [hc]
      simp only [hst.2 hs, if_true, startUpdates, this]
      simp [startTimer, hv, Sys.at, Config.at]
    · simp [resetTimer, startTimer, hr', Sys.at]

/-- Positive rates, and configured ones of 30 and 10. -/
def positive (r : ℚ) : Bool := 0 < r
def usual : Config ℚ := ⟨30, 10⟩

example : positive usual.conv = true ∧ positive usual.v2i = true ∧
    (∀ c r, Event.reset c r ∈ [Event.reset .v2i (2 : ℚ), .frame, .start, .frame] → positive r = true) ∧
    lastRate .v2i [Event.reset .v2i (2 : ℚ), .frame, .start, .frame] = some 2 ∧
    lastRate .conventional [Event.reset .v2i (2 : ℚ), .frame, .start, .frame] = none ∧
    Framed [Event.reset .v2i (2 : ℚ), .frame, .start, .frame] ∧ ¬ Framed [Event.reset .v2i (2 : ℚ), .frame, .start] ∧
    positive (-3) = false := by
  refine ⟨by decide +kernel, by decide +kernel, fun c r h => ?_, by decide +kernel, by decide +kernel, ⟨[.reset .v2i 2, .frame], [], [], rfl⟩, ?_,
    by decide +kernel⟩
  · simp at h
    obtain ⟨-, rfl⟩ := h
    decide +kernel
  · have e : [Event.reset .v2i (2 : ℚ), .frame, .start] = [.reset .v2i 2, .frame] ++ [.start] := rfl
    have e' : [Event.reset .v2i (2 : ℚ), .frame] = [.reset .v2i 2] ++ [.frame] := rfl
    rw [e, framed_concat, e', framed_concat]
    simp only [reduceCtorEq, false_and, or_false, List.mem_singleton, and_false]
    rintro ⟨a, b, c, hh⟩
    have := congrArg List.length hh
    simp at this
    omega

end Verif.Lamps
