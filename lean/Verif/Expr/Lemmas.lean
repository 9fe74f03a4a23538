import Verif.Expr.Spec
/-
The recursive descent over the written form of an expression.
-/
namespace Verif.Expr
variable {D : Type} [Dbl D] {env : String → R D}

/-- `rest` does not go on with an operator of level `l` or above. -/
def Stop (l : Nat) (rest : List (Tok D)) : Prop := ∀ o r, rest = .op o :: r → o.level < l

omit [Dbl D] in
theorem Stop.mono {l k : Nat} {rest : List (Tok D)} (h : Stop l rest) (hk : l ≤ k) : Stop k rest :=
  fun o r e => Nat.lt_of_lt_of_le (h o r e) hk

/-- What a rule does after it has matched an operand with value `r`. -/
def cont (env : String → R D) (l : Nat) (r : R D) (rest : List (Tok D)) : Option (Out D) :=
  match r with
  | .error e => some (.error e)
  | .ok v => if l ≤ 3 then loop env l v rest else some (.ok v rest)

theorem loop_stop {l : Nat} {rest : List (Tok D)} (h : Stop l rest) (v : Value D) :
    loop env l v rest = some (.ok v rest) := by
  rw [loop.eq_def]
  split
  · rename_i o r
    have := h o r rfl
    rw [if_neg (by omega)]
  · rfl

theorem cont_stop {l : Nat} {rest : List (Tok D)} (h : Stop l rest) (r : R D) :
    cont env l r rest = some (act r rest) := by
  unfold cont act
  cases r with
  | error e => rfl
  | ok v =>
    simp only
    split
    · exact loop_stop h v
    · rfl

def hd4 (ts : List (Tok D)) : Prop := ∀ r, ts ≠ .op .sub :: r ∧ ts ≠ .not :: r
def hd5 (ts : List (Tok D)) : Prop := ∀ r, ts ≠ .pow :: r ∧ ∀ f, ts ≠ .fn f :: r

theorem step {k : Nat} {ts rest : List (Tok D)} {r : R D} (hk : k ≤ 5)
    (h : parse env (k + 1) ts = cont env (k + 1) r rest) (hs : Stop (k + 1) rest)
    (h4 : k = 4 → hd4 ts) (h5 : k = 5 → hd5 ts) : parse env k ts = cont env k r rest := by
  rw [cont_stop hs] at h
  rw [parse.eq_def]
  by_cases k3 : k ≤ 3
  · rw [if_pos k3, h]
    cases r with
    | error e => rfl
    | ok v => simp [act, cont, k3]
  · rw [if_neg k3]
    have fin : cont env k r rest = some (act r rest) := by
      unfold cont act; cases r <;> simp [k3]
    rw [fin, ← h]
    by_cases k4 : k = 4
    · subst k4
      rw [if_pos rfl]
      split
      · exact absurd rfl (h4 rfl _).1
      · exact absurd rfl (h4 rfl _).2
      · rfl
    · rw [if_neg k4]
      have k5 : k = 5 := by omega
      subst k5
      rw [if_pos rfl]
      split
      · exact absurd rfl (h5 rfl _).1
      · exact absurd rfl ((h5 rfl _).2 _)
      · rfl

omit [Dbl D] in
theorem stop_rpar (l : Nat) (rest : List (Tok D)) : Stop l (.rpar :: rest) := by
  intro o r h; simp at h

omit [Dbl D] in
theorem stop_comma (l : Nat) (rest : List (Tok D)) : Stop l (.comma :: rest) := by
  intro o r h; simp at h

omit [Dbl D] in
theorem level_prec (o : Op) (a b : Expr D) : o.level = (Expr.bin o a b).prec := by
  cases o <;> rfl

omit [Dbl D] in
theorem stop5 (l : Nat) (h : 4 ≤ l) (rest : List (Tok D)) : Stop l rest := by
  intro o r _; cases o <;> simp [Op.level] <;> omega

theorem cont4 {l : Nat} (h : 4 ≤ l) (r : R D) (rest : List (Tok D)) :
    cont env l r rest = some (act r rest) := cont_stop (stop5 l h rest) r

omit [Dbl D] in
theorem prec_bin (o : Op) (a b : Expr D) : (Expr.bin o a b).prec ≤ 3 := by
  cases o <;> simp [Expr.prec]

omit [Dbl D] in
theorem Derives.le6 {l : Nat} {ts : List (Tok D)} {e : Expr D} (h : Derives l ts e) : l ≤ 6 := by
  induction h with
  | bin o _ _ _ _ => have := prec_bin o (D := D); grind
  | _ => omega

omit [Dbl D] in
theorem Derives.head {l : Nat} {ts : List (Tok D)} {e : Expr D} (h : Derives l ts e) (rest : List (Tok D)) :
    (4 < l → hd4 (ts ++ rest)) ∧ (5 < l → hd5 (ts ++ rest)) := by
  induction h with
  | stronger _ ih => exact ⟨fun h => ih.1 (by omega), fun h => ih.2 (by omega)⟩
  | bin o ha hb _ _ =>
    have := prec_bin o (D := D)
    constructor <;> intro h <;> grind
  | neg _ _ => exact ⟨fun h => by omega, fun h => by omega⟩
  | not _ _ => exact ⟨fun h => by omega, fun h => by omega⟩
  | fn f _ _ => exact ⟨fun _ r => by simp, fun h => by omega⟩
  | pow _ _ _ _ => exact ⟨fun _ r => by simp, fun h => by omega⟩
  | _ => exact ⟨fun _ r => by simp, fun _ r => by simp⟩

/-- Reading a text of `e`. -/
theorem reads {l : Nat} {ts : List (Tok D)} {e : Expr D} (h : Derives l ts e) :
    ∀ rest, Stop (l + 1) rest → parse env l (ts ++ rest) = cont env l (e.eval env) rest := by
  induction h with
  | lit v =>
    intro rest _
    rw [parse.eq_def, if_neg (by omega), if_neg (by omega), if_neg (by omega)]
    rfl
  | var n =>
    intro rest _
    rw [parse.eq_def, if_neg (by omega), if_neg (by omega), if_neg (by omega), cont4 (by omega)]
    rfl
  | @paren ts e _ ih =>
    intro rest hs
    rw [parse.eq_def, if_neg (by omega), if_neg (by omega), if_neg (by omega)]
    have := ih (.rpar :: rest) (stop_rpar _ _)
    rw [cont_stop (stop_rpar _ _)] at this
    simp only [List.cons_append, List.append_assoc, List.nil_append]
    rw [this]
    cases e.eval env <;> simp [act, cont]
  | @fn f ts a _ ih =>
    intro rest hs
    have := ih (.rpar :: rest) (stop_rpar _ _)
    rw [cont_stop (stop_rpar _ _)] at this
    rw [parse.eq_def, if_neg (by omega), if_neg (by omega), if_pos rfl]
    simp only [List.cons_append, List.append_assoc, List.nil_append]
    rw [this, cont4 (by omega)]
    simp only [Expr.eval]
    cases a.eval env <;> rfl
  | @pow ts us a b _ _ iha ihb =>
    intro rest hs
    have h1 := iha (.comma :: (us ++ .rpar :: rest)) (stop_comma _ _)
    rw [cont_stop (stop_comma _ _)] at h1
    have h2 := ihb (.rpar :: rest) (stop_rpar _ _)
    rw [cont_stop (stop_rpar _ _)] at h2
    rw [parse.eq_def, if_neg (by omega), if_neg (by omega), if_pos rfl]
    simp only [List.cons_append, List.append_assoc, List.nil_append]
    rw [h1, cont4 (by omega)]
    simp only [Expr.eval]
    cases a.eval env with
    | error e => rfl
    | ok x =>
      simp only [act]
      show (parse env 0 (us ++ .rpar :: rest) >>= _) = _
      rw [h2]
      cases b.eval env <;> rfl
  | @neg ts a _ ih =>
    intro rest hs
    have := ih rest (stop5 _ (by omega) _)
    rw [cont4 (by omega)] at this
    rw [parse.eq_def, if_neg (by omega), if_pos rfl]
    simp only [List.cons_append]
    rw [this, cont4 (by omega)]
    simp only [Expr.eval]
    cases a.eval env <;> rfl
  | @not ts a _ ih =>
    intro rest hs
    have := ih rest (stop5 _ (by omega) _)
    rw [cont4 (by omega)] at this
    rw [parse.eq_def, if_neg (by omega), if_pos rfl]
    simp only [List.cons_append]
    rw [this, cont4 (by omega)]
    simp only [Expr.eval]
    cases a.eval env <;> rfl
  | @bin o ts us a b _ _ iha ihb =>
    intro rest hs
    have hp := prec_bin o a b
    generalize hP : (Expr.bin o a b).prec = p at *
    have hlev : o.level = p := by rw [level_prec o a b, hP]
    rw [List.append_assoc]
    rw [iha _ (by intro o' r e; simp at e; rw [← e.1, hlev]; omega)]
    have hb' := ihb rest (hs.mono (by omega))
    rw [cont_stop (hs.mono (by omega))] at hb'
    simp only [Expr.eval]
    cases hva : a.eval env with
    | error e => rfl
    | ok x =>
      simp only [cont, hp, if_true, List.cons_append]
      rw [loop.eq_def]
      simp only [hlev, if_true]
      rw [hb']
      cases hvb : b.eval env with
      | error e => rfl
      | ok y =>
        simp only [act]
        show (match o.apply x y with
          | .ok x => loop env p x rest
          | .error e => some (.error e)) = _
        cases h : o.apply x y <;> simp [bind, Except.bind, h]
  | @stronger l ts e h ih =>
    intro rest hs
    have := h.le6
    have hh := h.head rest
    exact step (by omega) (ih rest (hs.mono (by omega))) hs (fun e => hh.1 (by omega))
      (fun e => hh.2 (by omega))

omit [Dbl D] in
theorem Derives.lower {p : Nat} {ts : List (Tok D)} {e : Expr D} (h : Derives p ts e) (l : Nat)
    (hl : l ≤ p) : Derives l ts e := by
  induction p with
  | zero => obtain rfl : l = 0 := by omega
            exact h
  | succ k ih =>
    by_cases e : l = k + 1
    · subst e; exact h
    · exact ih h.stronger (by omega)

omit [Dbl D] in
theorem derives_wrapped {l : Nat} {e : Expr D} {body : List (Tok D)} (hl : l ≤ 6)
    (h : Derives e.prec body e) : Derives l (wrapped l e body) e := by
  unfold wrapped
  split
  · rename_i hle; exact h.lower l hle
  · exact (Derives.paren (h.lower 0 (by omega))).lower l hl

omit [Dbl D] in
theorem derives_write (e : Expr D) : ∀ l, l ≤ 6 → Derives l (e.write l) e := by
  induction e with
  | lit v => exact fun l hl => (Derives.lit v).lower l hl
  | var n => exact fun l hl => (Derives.var n).lower l hl
  | bin o a b ha hb =>
    intro l hl
    have := prec_bin o a b
    exact derives_wrapped hl (.bin o (ha _ (by omega)) (hb _ (by omega)))
  | neg a ha => exact fun l hl => derives_wrapped hl (.neg (ha _ (by omega)))
  | not a ha => exact fun l hl => derives_wrapped hl (.not (ha _ (by omega)))
  | pow a b ha hb => exact fun l hl => derives_wrapped hl (.pow (ha _ (by omega)) (hb _ (by omega)))
  | fn f a ha => exact fun l hl => derives_wrapped hl (.fn f (ha _ (by omega)))

/-- What a successful rule has consumed is a text of an expression with the value it returns. -/
def M1 (env : String → R D) (l : Nat) (ts : List (Tok D)) (o : Out D) : Prop :=
  ∀ v r, o = .ok v r → l ≤ 6 → ∃ pre e, ts = pre ++ r ∧ pre ≠ [] ∧ Derives l pre e ∧ e.eval env = .ok v

def M2 (env : String → R D) (l : Nat) (v : Value D) (ts : List (Tok D)) (o : Out D) : Prop :=
  ∀ v' r, o = .ok v' r → l ≤ 3 → ∀ pre e, Derives l pre e → e.eval env = .ok v →
    ∃ pre' e', ts = pre' ++ r ∧ Derives l (pre ++ pre') e' ∧ e'.eval env = .ok v'

end Verif.Expr
