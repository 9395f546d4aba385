import Verif.Base.Prelude

/-! # Histories with the states before and after every successful call -/

namespace Amp

/-- one successful call: the state before, the call, the response, the state after -/
structure Step (S C R : Type) where
  pre : S
  call : C
  resp : R
  post : S

section
variable {S C R E : Type} (exec : S → C → Except E (S × R))

/-- the successful calls of a history, in order -/
def steps (s : S) : List C → List (Step S C R)
  | [] => []
  | c :: cs =>
    match exec s c with
    | .ok (s', r) => ⟨s, c, r, s'⟩ :: steps s' cs
    | .error _ => steps s cs

@[simp] theorem steps_nil (s : S) : steps exec s [] = [] := rfl

theorem steps_cons_ok {s s' : S} {c : C} {r : R} (h : exec s c = .ok (s', r)) (cs : List C) :
    steps exec s (c :: cs) = ⟨s, c, r, s'⟩ :: steps exec s' cs := by
  simp [steps, h]

theorem steps_cons_error {s : S} {c : C} {e : E} (h : exec s c = .error e) (cs : List C) :
    steps exec s (c :: cs) = steps exec s cs := by
  simp [steps, h]

/-- Invariants relating the successful calls to the state. -/
theorem steps_inv {P : List (Step S C R) → S → Prop} (s0 : S) (h0 : P [] s0)
    (h : ∀ log s c s' r, P log s → exec s c = .ok (s', r) → P (log ++ [⟨s, c, r, s'⟩]) s')
    (cs : List C) : P (steps exec s0 cs) (runCalls exec s0 cs) := by
  suffices H : ∀ cs s log, P log s → P (log ++ steps exec s cs) (runCalls exec s cs) by
    simpa using H cs s0 [] h0
  intro cs
  induction cs with
  | nil => intro s log hp; simpa using hp
  | cons c cs ih =>
    intro s log hp
    cases hx : exec s c with
    | error e =>
      rw [steps_cons_error exec hx, runCalls_cons, hx]
      exact ih s log hp
    | ok x =>
      obtain ⟨s', r⟩ := x
      rw [steps_cons_ok exec hx, runCalls_cons, hx]
      have := ih s' _ (h log s c s' r hp hx)
      rw [List.append_assoc] at this
      exact this

/-- every step of a history is a successful call on a reachable state -/
theorem steps_mem {s : S} {cs : List C} {e : Step S C R} (h : e ∈ steps exec s cs) :
    (∃ cs₁ cs₂, cs = cs₁ ++ e.call :: cs₂ ∧ e.pre = runCalls exec s cs₁) ∧
      exec e.pre e.call = .ok (e.post, e.resp) := by
  induction cs generalizing s with
  | nil => simp at h
  | cons c cs ih =>
    cases hx : exec s c with
    | error x =>
      rw [steps_cons_error exec hx] at h
      obtain ⟨⟨cs₁, cs₂, h1, h2⟩, h3⟩ := ih h
      exact ⟨⟨c :: cs₁, cs₂, by rw [h1]; rfl, by rw [h2, runCalls_cons, hx]; rfl⟩, h3⟩
    | ok x =>
      obtain ⟨s', r⟩ := x
      rw [steps_cons_ok exec hx] at h
      rcases List.mem_cons.mp h with rfl | h
      · exact ⟨⟨[], cs, rfl, rfl⟩, hx⟩
      · obtain ⟨⟨cs₁, cs₂, h1, h2⟩, h3⟩ := ih h
        exact ⟨⟨c :: cs₁, cs₂, by rw [h1]; rfl, by rw [h2, runCalls_cons, hx]; rfl⟩, h3⟩

theorem steps_append (s : S) (cs ds : List C) :
    steps exec s (cs ++ ds) = steps exec s cs ++ steps exec (runCalls exec s cs) ds := by
  induction cs generalizing s with
  | nil => rfl
  | cons c cs ih =>
    rw [List.cons_append]
    cases h : exec s c with
    | error e => rw [steps_cons_error exec h, steps_cons_error exec h, ih, runCalls_cons, h]; rfl
    | ok x =>
      obtain ⟨s', r⟩ := x
      rw [steps_cons_ok exec h, steps_cons_ok exec h, ih, runCalls_cons, h]; rfl

/-- the log of calls and responses is the log of steps without the states -/
theorem outs_eq_steps (s : S) (cs : List C) :
    outs exec s cs = (steps exec s cs).map (fun e => (e.call, e.resp)) := by
  induction cs generalizing s with
  | nil => rfl
  | cons c cs ih =>
    cases hx : exec s c with
    | error e => rw [outs_cons_error exec hx, steps_cons_error exec hx, ih]
    | ok x =>
      obtain ⟨s', r⟩ := x
      rw [outs_cons_ok exec hx, steps_cons_ok exec hx, ih]; rfl

end

end Amp
