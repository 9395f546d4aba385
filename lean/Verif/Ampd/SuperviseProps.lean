import Verif.Ampd.Supervise
import Verif.Ampd.Events
import Mathlib.Tactic.ByContra
import Mathlib.Logic.Basic

/-! # C93: the daemon ends as a whole -/

namespace Amp.Ampd

/-! ### Specification -/

/-- after the schedule `as`, the daemon with `n` handlers is in the state `s` -/
def Reaches (n : Nat) (as : List Action) (s : Tasks) : Prop := (Tasks.init n).run as = some s

/-- task `t` was the first whose end the daemon tasks_noticed: after `as₁` -/
def FirstNoticed (as as₁ : List Action) (t : Job) : Prop :=
  ∃ as₂, as = as₁ ++ .join t :: as₂ ∧ ∀ t', Action.join t' ∉ as₁

/-- an action in which nothing fails: a task ends because it is told to or has nothing left to do, or `App::run` goes on -/
def Action.Orderly : Action → Prop
  | .signal => False
  | .handlerEnds _ e => e = .ok
  | .ends .processor _ => True
  | .ends _ e => e = .ok
  | .join _ => True
  | .exit => True

/-! ### Lemmas -/

theorem tasks_run_append (s : Tasks) (as bs : List Action) : s.run (as ++ bs) = (s.run as).bind (fun s' => s'.run bs) := by
  induction as generalizing s with
  | nil => rfl
  | cons a as ih =>
    simp only [List.cons_append, Tasks.run]
    cases s.step a with
    | none => rfl
    | some s' => exact ih s'

/-- what holds at all times -/
structure Tasks.Inv (n : Nat) (s : Tasks) : Prop where
  count : s.handlers.length = n
  joinedEnded : ∀ t, s.joined t = true → (s.ended t).isSome
  waitingFresh : s.phase = .waiting → ∀ t, s.joined t = false
  drainingCancelled : ∀ r, s.phase = .draining r → s.cancelled = true
  exitedAll : ∀ r, s.phase = .exited r → s.cancelled = true ∧ ∀ t, s.joined t = true
  processorOk : s.ended .processor = some .ok → s.handlersEnded = true
  broadcasterOk : s.ended .broadcaster = some .ok → s.handlersEnded = true
  updaterEnded : ∀ e, s.ended .updater = some e → e = .ok ∧ s.handlersEnded = true
  subOk : s.cancelled = false → s.ended .eventSub ≠ some .ok
  monitorOk : s.cancelled = false → s.ended .monitor ≠ some .ok
  handlerOk : s.cancelled = false → some End.ok ∈ s.handlers → (s.ended .eventSub).isSome

theorem tasks_inv_init (n : Nat) : (Tasks.init n).Inv n := by
  constructor <;> simp [Tasks.init]

theorem handlersEnded_iff (s : Tasks) : s.handlersEnded = true ↔ ∀ h ∈ s.handlers, h ≠ none := by
  unfold Tasks.handlersEnded
  rw [List.all_eq_true]
  constructor
  · intro h x hx; exact Option.isSome_iff_ne_none.mp (h x hx)
  · intro h x hx; exact Option.isSome_iff_ne_none.mpr (h x hx)

theorem handlersEnded_set {s s' : Tasks} {i : Nat} {e : End} (h : s'.handlers = s.handlers.set i (some e))
    (hs : s.handlersEnded = true) : s'.handlersEnded = true := by
  rw [handlersEnded_iff] at *
  intro x hx
  rw [h] at hx
  rcases List.mem_or_eq_of_mem_set hx with hx | rfl
  · exact hs x hx
  · simp

theorem allJoined_iff (s : Tasks) : s.allJoined = true ↔ ∀ t, s.joined t = true := by
  unfold Tasks.allJoined
  simp only [Bool.and_eq_true]
  constructor
  · rintro ⟨⟨⟨⟨h1, h2⟩, h3⟩, h4⟩, h5⟩ t
    cases t <;> assumption
  · intro h
    exact ⟨⟨⟨⟨h _, h _⟩, h _⟩, h _⟩, h _⟩

theorem tasks_inv_step {n : Nat} {s s' : Tasks} {a : Action} (hi : s.Inv n) (h : s.step a = some s') : s'.Inv n := by
  cases a with
  | signal =>
    have key : s' = { s with cancelled := true } ∧ ∀ r, s.phase ≠ .exited r := by
      unfold Tasks.step at h
      dsimp only at h
      split at h
      · simp at h
      · rename_i hp
        simp only [Option.some.injEq] at h
        exact ⟨h.symm, hp⟩
    obtain ⟨rfl, hp⟩ := key
    exact ⟨hi.count, hi.joinedEnded, hi.waitingFresh, fun _ _ => rfl, fun r hr => absurd hr (hp r), hi.processorOk,
      hi.broadcasterOk, hi.updaterEnded, by simp, by simp, by simp⟩
  | handlerEnds i e =>
    unfold Tasks.step at h
    dsimp only at h
    split at h
    · rename_i hc
      simp only [Option.some.injEq] at h
      subst h
      have hset : ∀ {s'' : Tasks}, s''.handlers = s.handlers.set i (some e) → s.handlersEnded = true →
        s''.handlersEnded = true := fun h1 h2 => handlersEnded_set h1 h2
      refine ⟨by simp [hi.count], hi.joinedEnded, hi.waitingFresh, hi.drainingCancelled, hi.exitedAll,
        fun h => hset rfl (hi.processorOk h), fun h => hset rfl (hi.broadcasterOk h),
        fun e' h => ⟨(hi.updaterEnded e' h).1, hset rfl (hi.updaterEnded e' h).2⟩, hi.subOk, hi.monitorOk, ?_⟩
      intro hcan hm
      rcases List.mem_or_eq_of_mem_set hm with hm | he
      · exact hi.handlerOk hcan hm
      · simp only [Option.some.injEq] at he
        subst he
        have h2 := hc.2
        unfold Tasks.handlerMayEnd at h2
        dsimp only at hcan
        rw [hcan] at h2
        simpa using h2
    · simp at h
  | ends t e =>
    unfold Tasks.step at h
    dsimp only at h
    split at h
    · rename_i hc
      simp only [Option.some.injEq] at h
      subst h
      obtain ⟨hn, hm⟩ := hc
      have hproc : s.mayEnd .processor .ok = true → s.handlersEnded = true := by
        intro h
        unfold Tasks.mayEnd at h
        rw [handlersEnded_iff]
        intro x hx
        rw [List.all_eq_true] at h
        have := h x hx
        simp only [beq_iff_eq] at this
        rw [this]; simp
      refine ⟨hi.count, ?_, hi.waitingFresh, hi.drainingCancelled, hi.exitedAll, ?_, ?_, ?_, ?_, ?_, ?_⟩
      · intro t' ht'
        dsimp only at ht' ⊢
        split
        · rfl
        · exact hi.joinedEnded t' ht'
      · intro h
        dsimp only at h
        split at h
        · rename_i ht
          simp only [Option.some.injEq] at h
          subst ht h
          exact hproc hm
        · exact hi.processorOk h
      · intro h
        dsimp only at h
        split at h
        · rename_i ht
          simp only [Option.some.injEq] at h
          subst ht h
          exact hm
        · exact hi.broadcasterOk h
      · intro e' h
        dsimp only at h
        split at h
        · rename_i ht
          simp only [Option.some.injEq] at h
          subst ht h
          cases e with
          | ok => exact ⟨rfl, hm⟩
          | err => simp [Tasks.mayEnd] at hm
          | panic => simp [Tasks.mayEnd] at hm
        · exact hi.updaterEnded e' h
      · intro hcan h
        dsimp only at h hcan
        split at h
        · rename_i ht
          simp only [Option.some.injEq] at h
          subst ht h
          unfold Tasks.mayEnd at hm
          rw [hcan] at hm
          simp at hm
        · exact hi.subOk hcan h
      · intro hcan h
        dsimp only at h hcan
        split at h
        · rename_i ht
          simp only [Option.some.injEq] at h
          subst ht h
          unfold Tasks.mayEnd at hm
          rw [hcan] at hm
          simp at hm
        · exact hi.monitorOk hcan h
      · intro hcan h
        dsimp only at h hcan ⊢
        split
        · rfl
        · exact hi.handlerOk hcan h
    · simp at h
  | join t =>
    unfold Tasks.step at h
    dsimp only at h
    split at h
    · rename_i e he hj
      have hje : ∀ t', (if t' = t then true else s.joined t') = true → (s.ended t').isSome := by
        intro t' h
        split at h
        · rename_i ht; subst ht; rw [he]; rfl
        · exact hi.joinedEnded t' h
      split at h
      · rename_i hp
        split at h
        · rename_i hcan
          simp only [Option.some.injEq] at h
          subst h
          exact ⟨hi.count, hje, by simp, fun _ _ => hcan, by simp, hi.processorOk, hi.broadcasterOk, hi.updaterEnded,
            hi.subOk, hi.monitorOk, hi.handlerOk⟩
        · simp only [Option.some.injEq] at h
          subst h
          exact ⟨hi.count, hje, by simp, by simp, by simp, hi.processorOk, hi.broadcasterOk, hi.updaterEnded,
            by simp, by simp, by simp⟩
      · rename_i r hp
        simp only [Option.some.injEq] at h
        subst h
        exact ⟨hi.count, hje, by simp, fun _ _ => hi.drainingCancelled r hp, by simp, hi.processorOk, hi.broadcasterOk,
          hi.updaterEnded, hi.subOk, hi.monitorOk, hi.handlerOk⟩
      · simp at h
    · simp at h
  | exit =>
    unfold Tasks.step at h
    dsimp only at h
    split at h
    · rename_i r hp
      split at h
      · rename_i hall
        simp only [Option.some.injEq] at h
        subst h
        exact ⟨hi.count, hi.joinedEnded, by simp, by simp,
          fun _ _ => ⟨hi.drainingCancelled r hp, (allJoined_iff s).mp hall⟩, hi.processorOk, hi.broadcasterOk,
          hi.updaterEnded, hi.subOk, hi.monitorOk, hi.handlerOk⟩
      · simp at h
    · simp at h

theorem inv_run_tasks {n : Nat} {s s' : Tasks} {as : List Action} (hi : s.Inv n) (h : s.run as = some s') : s'.Inv n := by
  induction as generalizing s with
  | nil => simp only [Tasks.run, Option.some.injEq] at h; subst h; exact hi
  | cons a as ih =>
    simp only [Tasks.run] at h
    split at h
    · simp at h
    · rename_i s1 h1
      exact ih (tasks_inv_step hi h1) h

theorem reaches_inv {n : Nat} {as : List Action} {s : Tasks} (h : Reaches n as s) : s.Inv n := inv_run_tasks (tasks_inv_init n) h

/-- actions before the first `join` leave the daemon waiting, and cancelled only by a signal -/
theorem tasks_run_waiting {s s' : Tasks} {as : List Action} (hw : s.phase = .waiting) (hj : ∀ t, Action.join t ∉ as)
    (h : s.run as = some s') : s'.phase = .waiting ∧ (s'.cancelled = true ↔ s.cancelled = true ∨ .signal ∈ as) := by
  induction as generalizing s with
  | nil => simp only [Tasks.run, Option.some.injEq] at h; subst h; simp [hw]
  | cons a as ih =>
    simp only [Tasks.run] at h
    split at h
    · simp at h
    · rename_i s1 h1
      have hj' : ∀ t, Action.join t ∉ as := fun t ht => hj t (List.mem_cons_of_mem _ ht)
      have key : s1.phase = .waiting ∧ (s1.cancelled = true ↔ s.cancelled = true ∨ a = .signal) := by
        cases a with
        | signal =>
          simp only [Tasks.step, hw, Option.some.injEq] at h1
          subst h1
          simp [hw]
        | handlerEnds i e =>
          unfold Tasks.step at h1
          dsimp only at h1
          split at h1
          · simp only [Option.some.injEq] at h1; subst h1; simp [hw]
          · simp at h1
        | ends t e =>
          unfold Tasks.step at h1
          dsimp only at h1
          split at h1
          · simp only [Option.some.injEq] at h1; subst h1; simp [hw]
          · simp at h1
        | join t => exact absurd (List.mem_cons_self ..) (hj t)
        | exit => simp [Tasks.step, hw] at h1
      obtain ⟨h2, h3⟩ := ih key.1 hj' h
      refine ⟨h2, h3.trans ?_⟩
      rw [key.2, List.mem_cons]
      constructor
      · rintro ((h | rfl) | h)
        · exact Or.inl h
        · exact Or.inr (Or.inl rfl)
        · exact Or.inr (Or.inr h)
      · rintro (h | h | h)
        · exact Or.inl (Or.inl h)
        · exact Or.inl (Or.inr h.symm)
        · exact Or.inr h

/-- the result is determined once -/
theorem tasks_run_result {s s' : Tasks} {as : List Action} {r : Except DaemonError Unit}
    (hp : s.phase = .draining r ∨ s.phase = .exited r) (h : s.run as = some s') :
    s'.phase = .draining r ∨ s'.phase = .exited r := by
  induction as generalizing s with
  | nil => simp only [Tasks.run, Option.some.injEq] at h; subst h; exact hp
  | cons a as ih =>
    simp only [Tasks.run] at h
    split at h
    · simp at h
    · rename_i s1 h1
      refine ih ?_ h
      cases a with
      | signal =>
        unfold Tasks.step at h1
        dsimp only at h1
        split at h1
        · simp at h1
        · simp only [Option.some.injEq] at h1; subst h1; exact hp
      | handlerEnds i e =>
        unfold Tasks.step at h1
        dsimp only at h1
        split at h1
        · simp only [Option.some.injEq] at h1; subst h1; exact hp
        · simp at h1
      | ends t e =>
        unfold Tasks.step at h1
        dsimp only at h1
        split at h1
        · simp only [Option.some.injEq] at h1; subst h1; exact hp
        · simp at h1
      | join t =>
        unfold Tasks.step at h1
        dsimp only at h1
        split at h1
        · split at h1
          · rename_i hw; rw [hw] at hp; simp at hp
          · rename_i r' hr'
            simp only [Option.some.injEq] at h1
            subst h1
            rw [hr'] at hp
            left
            simpa using hp
          · simp at h1
        · simp at h1
      | exit =>
        unfold Tasks.step at h1
        dsimp only at h1
        split at h1
        · rename_i r' hr'
          split at h1
          · simp only [Option.some.injEq] at h1
            subst h1
            rw [hr'] at hp
            right
            simpa using hp
          · simp at h1
        · simp at h1

theorem tasks_first_join (as : List Action) : (∀ t, Action.join t ∉ as) ∨ ∃ as₁ t, FirstNoticed as as₁ t := by
  induction as with
  | nil => left; simp
  | cons a as ih =>
    by_cases ha : ∃ t, a = .join t
    · obtain ⟨t, rfl⟩ := ha
      exact Or.inr ⟨[], t, as, rfl, by simp⟩
    · rcases ih with h | ⟨as₁, t, as₂, rfl, h⟩
      · left
        intro t ht
        rcases List.mem_cons.mp ht with ht | ht
        · exact ha ⟨t, ht.symm⟩
        · exact h t ht
      · right
        refine ⟨a :: as₁, t, as₂, rfl, ?_⟩
        intro t' ht'
        rcases List.mem_cons.mp ht' with ht' | ht'
        · exact ha ⟨t', ht'.symm⟩
        · exact h t' ht'

/-- what happens when the first end of a task is tasks_noticed -/
theorem tasks_noticed {n : Nat} {as as₁ : List Action} {t : Job} {s : Tasks} (h : Reaches n as s) (hf : FirstNoticed as as₁ t) :
    ∃ s₁ e, Reaches n as₁ s₁ ∧ s₁.ended t = some e ∧
      (s.phase = .draining (if .signal ∈ as₁ then .ok () else t.result e) ∨
       s.phase = .exited (if .signal ∈ as₁ then .ok () else t.result e)) := by
  obtain ⟨as₂, rfl, hj⟩ := hf
  unfold Reaches at h
  rw [tasks_run_append] at h
  obtain ⟨s₁, h1, h2⟩ := Option.bind_eq_some_iff.mp h
  obtain ⟨hw, hc⟩ := tasks_run_waiting rfl hj h1
  simp only [Tasks.run] at h2
  split at h2
  · simp at h2
  · rename_i s2 hs2
    unfold Tasks.step at hs2
    dsimp only at hs2
    split at hs2
    · rename_i e he _
      refine ⟨s₁, e, h1, he, ?_⟩
      rw [hw] at hs2
      dsimp only at hs2
      have hc' : s₁.cancelled = true ↔ .signal ∈ as₁ := by rw [hc]; simp [Tasks.init]
      split at hs2
      · rename_i hcan
        simp only [Option.some.injEq] at hs2
        subst hs2
        rw [if_pos (hc'.mp hcan)]
        exact tasks_run_result (Or.inl rfl) h2
      · rename_i hcan
        simp only [Option.some.injEq] at hs2
        subst hs2
        rw [if_neg (fun hx => hcan (hc'.mpr hx))]
        exact tasks_run_result (Or.inl rfl) h2
    · simp at hs2

theorem exited_noticed {n : Nat} {as : List Action} {s : Tasks} (h : Reaches n as s) (hp : s.phase ≠ .waiting) :
    ∃ as₁ t, FirstNoticed as as₁ t := by
  rcases tasks_first_join as with hj | hj
  · exact absurd (tasks_run_waiting rfl hj h).1 hp
  · exact hj

/-- what is left to happen: tasks to end, tasks to be joined, and the exit -/
def Tasks.left (s : Tasks) : Nat :=
  s.handlers.countP (·.isNone) + ([Job.eventSub, .processor, .broadcaster, .monitor, .updater].countP
    (fun t => (s.ended t).isNone)) + ([Job.eventSub, .processor, .broadcaster, .monitor, .updater].countP
    (fun t => !s.joined t)) + (match s.phase with | .exited _ => 0 | _ => 1)

theorem countP_set {l : List (Option End)} {i : Nat} {e : End} (h : l[i]? = some none) :
    (l.set i (some e)).countP (·.isNone) + 1 = l.countP (·.isNone) := by
  induction l generalizing i with
  | nil => simp at h
  | cons x t ih =>
    cases i with
    | zero =>
      simp only [List.getElem?_cons_zero, Option.some.injEq] at h
      subst h
      simp
    | succ i =>
      simp only [List.getElem?_cons_succ] at h
      rw [List.set_cons_succ, List.countP_cons, List.countP_cons]
      have := ih h
      omega

/-- everything but a signal brings the daemon closer to its end -/
theorem tasks_left_step {s s' : Tasks} {a : Action} (h : s.step a = some s') :
    s'.left + (if a = .signal then 0 else 1) = s.left := by
  cases a with
  | signal =>
    unfold Tasks.step at h
    dsimp only at h
    split at h
    · simp at h
    · simp only [Option.some.injEq] at h; subst h; rfl
  | handlerEnds i e =>
    unfold Tasks.step at h
    dsimp only at h
    split at h
    · rename_i hc
      simp only [Option.some.injEq] at h
      subst h
      have := countP_set (e := e) hc.1
      simp only [Tasks.left, reduceCtorEq, if_false]
      omega
    · simp at h
  | ends t e =>
    unfold Tasks.step at h
    dsimp only at h
    split at h
    · rename_i hc
      simp only [Option.some.injEq] at h
      subst h
      have h1 := hc.1
      simp only [Tasks.left, reduceCtorEq, if_false, List.countP_cons, List.countP_nil]
      cases t <;> simp [h1] <;> omega
    · simp at h
  | join t =>
    unfold Tasks.step at h
    dsimp only at h
    split at h
    · rename_i e he hj
      split at h
      · rename_i hp
        split at h <;>
        · simp only [Option.some.injEq] at h
          subst h
          simp only [Tasks.left, reduceCtorEq, if_false, List.countP_cons, List.countP_nil, hp]
          cases t <;> simp [hj] <;> omega
      · rename_i r hp
        simp only [Option.some.injEq] at h
        subst h
        simp only [Tasks.left, reduceCtorEq, if_false, List.countP_cons, List.countP_nil, hp]
        cases t <;> simp [hj] <;> omega
      · simp at h
    · simp at h
  | exit =>
    unfold Tasks.step at h
    dsimp only at h
    split at h
    · rename_i r hp
      split at h
      · simp only [Option.some.injEq] at h
        subst h
        simp only [Tasks.left, reduceCtorEq, if_false, hp]
      · simp at h
    · simp at h

theorem tasks_left_run {s s' : Tasks} {as : List Action} (h : s.run as = some s') :
    s'.left + as.countP (fun a => decide (a ≠ .signal)) = s.left := by
  induction as generalizing s with
  | nil => simp only [Tasks.run, Option.some.injEq] at h; subst h; simp
  | cons a as ih =>
    simp only [Tasks.run] at h
    split at h
    · simp at h
    · rename_i s1 h1
      have h2 := ih h
      have h3 := tasks_left_step h1
      rw [List.countP_cons]
      by_cases ha : a = .signal
      · rw [if_pos ha] at h3
        rw [if_neg (by simp [ha])]
        omega
      · rw [if_neg ha] at h3
        rw [if_pos (by simp [ha])]
        omega

/-- a daemon that was told to stop can go on without anything failing -/
theorem tasks_orderly_step {n : Nat} {s : Tasks} (hi : s.Inv n) (hc : s.cancelled = true) (hp : ∀ r, s.phase ≠ .exited r) :
    ∃ a s', a.Orderly ∧ s.step a = some s' := by
  by_cases h1 : s.ended .eventSub = none
  · exact ⟨.ends .eventSub .ok, _, rfl, by unfold Tasks.step; dsimp only; rw [if_pos ⟨h1, hc⟩]⟩
  by_cases h2 : s.ended .monitor = none
  · exact ⟨.ends .monitor .ok, _, rfl, by unfold Tasks.step; dsimp only; rw [if_pos ⟨h2, hc⟩]⟩
  by_cases hh : s.handlersEnded = true
  case neg =>
    rw [handlersEnded_iff] at hh
    have : none ∈ s.handlers := by
      by_contra hn
      exact hh (fun x hx hx' => hn (hx' ▸ hx))
    obtain ⟨i, hi'⟩ := List.mem_iff_getElem?.mp this
    exact ⟨.handlerEnds i .ok, _, rfl, by
      unfold Tasks.step; dsimp only; rw [if_pos ⟨hi', by simp [Tasks.handlerMayEnd, hc]⟩]⟩
  by_cases h3 : s.ended .processor = none
  · by_cases hok : s.mayEnd .processor .ok = true
    · exact ⟨.ends .processor .ok, _, trivial, by unfold Tasks.step; dsimp only; rw [if_pos ⟨h3, hok⟩]⟩
    · refine ⟨.ends .processor .err, _, trivial, by unfold Tasks.step; dsimp only; rw [if_pos ⟨h3, ?_⟩]⟩
      have hok' : s.handlers.all (· == some .ok) ≠ true := hok
      unfold Tasks.mayEnd
      rw [handlersEnded_iff] at hh
      have : ∃ x ∈ s.handlers, x ≠ some .ok := by
        by_contra hn
        apply hok'
        rw [List.all_eq_true]
        intro x hx
        by_contra hx'
        exact hn ⟨x, hx, fun h => hx' (by simp [h])⟩
      obtain ⟨x, hx, hne⟩ := this
      match x, hx, hne, hh x hx with
      | some .err, hx, _, _ => simp [hx, (handlersEnded_iff s).mpr hh]
      | some .panic, hx, _, _ => simp [hx]
  by_cases h4 : s.ended .broadcaster = none
  · exact ⟨.ends .broadcaster .ok, _, rfl, by unfold Tasks.step; dsimp only; rw [if_pos ⟨h4, hh⟩]⟩
  by_cases h5 : s.ended .updater = none
  · exact ⟨.ends .updater .ok, _, rfl, by unfold Tasks.step; dsimp only; rw [if_pos ⟨h5, hh⟩]⟩
  have hall : ∀ t, ∃ e, s.ended t = some e := by
    intro t
    cases t <;> exact Option.ne_none_iff_exists'.mp (by assumption)
  by_cases hj : ∃ t, s.joined t = false
  · obtain ⟨t, ht⟩ := hj
    obtain ⟨e, he⟩ := hall t
    refine ⟨.join t, ?_⟩
    simp only [Tasks.step, he, ht]
    cases hph : s.phase with
    | waiting => simp only [hc, if_true]; exact ⟨_, trivial, rfl⟩
    | draining r => exact ⟨_, trivial, rfl⟩
    | exited r => exact absurd hph (hp r)
  · have hj' : ∀ t, s.joined t = true := by
      intro t
      cases ht : s.joined t with
      | true => rfl
      | false => exact absurd ⟨t, ht⟩ hj
    cases hph : s.phase with
    | waiting => have := hi.waitingFresh hph .updater; rw [hj'] at this; simp at this
    | draining r =>
      exact ⟨.exit, _, trivial, by simp only [Tasks.step, hph]; rw [if_pos ((allJoined_iff s).mpr hj')]⟩
    | exited r => exact absurd hph (hp r)

theorem tasks_cancelled_step {s s' : Tasks} {a : Action} (hc : s.cancelled = true) (h : s.step a = some s') :
    s'.cancelled = true := by
  cases a with
  | signal =>
    unfold Tasks.step at h
    dsimp only at h
    split at h
    · simp at h
    · simp only [Option.some.injEq] at h; subst h; rfl
  | handlerEnds i e =>
    unfold Tasks.step at h
    dsimp only at h
    split at h
    · simp only [Option.some.injEq] at h; subst h; exact hc
    · simp at h
  | ends t e =>
    unfold Tasks.step at h
    dsimp only at h
    split at h
    · simp only [Option.some.injEq] at h; subst h; exact hc
    · simp at h
  | join t =>
    unfold Tasks.step at h
    dsimp only at h
    split at h
    · split at h
      · split at h
        · simp only [Option.some.injEq] at h; subst h; exact hc
        · rename_i hn; exact absurd hc hn
      · simp only [Option.some.injEq] at h; subst h; exact hc
      · simp at h
    · simp at h
  | exit =>
    unfold Tasks.step at h
    dsimp only at h
    split at h
    · split at h
      · simp only [Option.some.injEq] at h; subst h; exact hc
      · simp at h
    · simp at h

/-- after errors of handlers only -/
theorem tasks_silent_run {s s' : Tasks} {as : List Action} (h : s.run as = some s')
    (ha : ∀ a ∈ as, ∃ i, a = .handlerEnds i .err) :
    s'.ended = s.ended ∧ s'.joined = s.joined ∧ s'.cancelled = s.cancelled ∧ s'.phase = s.phase ∧
      (∀ x ∈ s'.handlers, x ∈ s.handlers ∨ x = some .err) := by
  induction as generalizing s with
  | nil => simp only [Tasks.run, Option.some.injEq] at h; subst h; exact ⟨rfl, rfl, rfl, rfl, fun x hx => Or.inl hx⟩
  | cons a as ih =>
    obtain ⟨i, rfl⟩ := ha a (List.mem_cons_self ..)
    simp only [Tasks.run] at h
    split at h
    · simp at h
    · rename_i s1 h1
      obtain ⟨h2, h3, h4, h5, h6⟩ := ih h (fun a h => ha a (List.mem_cons_of_mem _ h))
      unfold Tasks.step at h1
      dsimp only at h1
      split at h1
      · simp only [Option.some.injEq] at h1
        subst h1
        refine ⟨h2, h3, h4, h5, ?_⟩
        intro x hx
        rcases h6 x hx with hx | hx
        · exact (List.mem_or_eq_of_mem_set hx)
        · exact Or.inr hx
      · simp at h1

/-! ### C93 -/

/-- C93: when the daemon exits, everything in it has ended: the event subscription, the queued broadcaster and the
handlers; and the updater of the state ended after all handlers had, so the state it returned has all they reported. -/
theorem C93_complete (n : Nat) (as : List Action) (s : Tasks) (r : Except DaemonError Unit) (h : Reaches n as s)
    (hp : s.phase = .exited r) :
    (∀ t, s.ended t ≠ none) ∧ s.handlers.length = n ∧ (∀ x ∈ s.handlers, x ≠ none) ∧ s.ended .updater = some .ok ∧
    ∃ as₁ as₂ s₁, as = as₁ ++ .ends .updater .ok :: as₂ ∧ Reaches n as₁ s₁ ∧ ∀ x ∈ s₁.handlers, x ≠ none := by
  have hi := reaches_inv h
  have hall := (hi.exitedAll r hp).2
  have hend : ∀ t, s.ended t ≠ none := fun t => Option.isSome_iff_ne_none.mp (hi.joinedEnded t (hall t))
  obtain ⟨e, he⟩ := Option.ne_none_iff_exists'.mp (hend .updater)
  obtain ⟨rfl, hh⟩ := hi.updaterEnded e he
  refine ⟨hend, hi.count, (handlersEnded_iff s).mp hh, he, ?_⟩
  -- the moment at which the updater ended
  have key : ∀ (as : List Action) (s0 s : Tasks), s0.ended .updater = none → s0.run as = some s →
      s.ended .updater = some .ok → ∃ as₁ as₂ s₁, as = as₁ ++ .ends .updater .ok :: as₂ ∧ s0.run as₁ = some s₁ ∧
        s₁.handlersEnded = true := by
    intro as
    induction as with
    | nil =>
      intro s0 s h0 hr he
      simp only [Tasks.run, Option.some.injEq] at hr
      subst hr
      rw [h0] at he
      simp at he
    | cons a as ih =>
      intro s0 s h0 hr he
      simp only [Tasks.run] at hr
      split at hr
      · simp at hr
      · rename_i s1 h1
        by_cases hn : s1.ended .updater = none
        · obtain ⟨as₁, as₂, s₁, rfl, h2, h3⟩ := ih s1 s hn hr he
          exact ⟨a :: as₁, as₂, s₁, rfl, by simp only [Tasks.run, h1]; exact h2, h3⟩
        · cases a with
          | ends t e =>
            unfold Tasks.step at h1
            dsimp only at h1
            split at h1
            · rename_i hc
              simp only [Option.some.injEq] at h1
              subst h1
              dsimp only at hn
              split at hn
              · rename_i ht
                subst ht
                have hm := hc.2
                cases e with
                | ok => exact ⟨[], as, s0, rfl, rfl, hm⟩
                | err => simp [Tasks.mayEnd] at hm
                | panic => simp [Tasks.mayEnd] at hm
              · exact absurd h0 hn
            · simp at h1
          | signal =>
            unfold Tasks.step at h1
            dsimp only at h1
            split at h1
            · simp at h1
            · simp only [Option.some.injEq] at h1; subst h1; exact absurd h0 hn
          | handlerEnds i e =>
            unfold Tasks.step at h1
            dsimp only at h1
            split at h1
            · simp only [Option.some.injEq] at h1; subst h1; exact absurd h0 hn
            · simp at h1
          | join t =>
            unfold Tasks.step at h1
            dsimp only at h1
            split at h1
            · split at h1
              · split at h1 <;> (simp only [Option.some.injEq] at h1; subst h1; exact absurd h0 hn)
              · simp only [Option.some.injEq] at h1; subst h1; exact absurd h0 hn
              · simp at h1
            · simp at h1
          | exit =>
            unfold Tasks.step at h1
            dsimp only at h1
            split at h1
            · split at h1
              · simp only [Option.some.injEq] at h1; subst h1; exact absurd h0 hn
              · simp at h1
            · simp at h1
  obtain ⟨as₁, as₂, s₁, h1, h2, h3⟩ := key as _ s rfl h he
  exact ⟨as₁, as₂, s₁, h1, h2, (handlersEnded_iff s₁).mp h3⟩

/-- C93: the result of the daemon is determined by the first end of a task that it notices: if a signal has arrived by
then it is `Ok`, otherwise it is the result of that task. -/
theorem C93_result (n : Nat) (as : List Action) (s : Tasks) (r : Except DaemonError Unit) (h : Reaches n as s)
    (hp : s.phase = .exited r) :
    ∃ as₁ t s₁ e, FirstNoticed as as₁ t ∧ Reaches n as₁ s₁ ∧ s₁.ended t = some e ∧
      (.signal ∈ as₁ → r = .ok ()) ∧ (.signal ∉ as₁ → r = t.result e) := by
  obtain ⟨as₁, t, hf⟩ := exited_noticed h (by rw [hp]; simp)
  obtain ⟨s₁, e, h1, h2, h3⟩ := tasks_noticed h hf
  refine ⟨as₁, t, s₁, e, hf, h1, h2, ?_⟩
  rw [hp] at h3
  simp only [reduceCtorEq, Phase.exited.injEq, false_or] at h3
  constructor
  · intro hs; rw [h3, if_pos hs]
  · intro hs; rw [h3, if_neg hs]

/-- C93: as soon as the end of a task is tasks_noticed, all others are told to stop. -/
theorem C93_stops (n : Nat) (as : List Action) (s : Tasks) (h : Reaches n as s) (t : Job) (ht : .join t ∈ as) :
    s.cancelled = true := by
  have hi := reaches_inv h
  cases hp : s.phase with
  | waiting =>
    exfalso
    obtain ⟨as₁, t', hf⟩ : ∃ as₁ t, FirstNoticed as as₁ t := by
      rcases tasks_first_join as with hj | hj
      · exact absurd ht (hj t)
      · exact hj
    obtain ⟨_, _, _, _, h3⟩ := tasks_noticed h hf
    rw [hp] at h3
    simp at h3
  | draining r => exact hi.drainingCancelled r hp
  | exited r => exact (hi.exitedAll r hp).1

/-- C93: a daemon that was told to stop, by a signal or because a task ended, comes to its end: as long as it has not,
something can go on without anything failing; and whatever happens, it happens at most `n + 11` times (other than
signals).  So it exits, after any such sequence that cannot be continued. -/
theorem C93_shutdown (n : Nat) (as : List Action) (s : Tasks) (h : Reaches n as s) (hc : s.cancelled = true) :
    as.countP (fun a => decide (a ≠ .signal)) ≤ n + 11 ∧
    ((∀ r, s.phase ≠ .exited r) → ∃ a s', a.Orderly ∧ s.step a = some s') ∧
    ∃ bs s' r, (∀ a ∈ bs, a.Orderly) ∧ s.run bs = some s' ∧ s'.phase = .exited r := by
  have hi := reaches_inv h
  refine ⟨?_, tasks_orderly_step hi hc, ?_⟩
  · have := tasks_left_run h
    have hinit : (Tasks.init n).left = n + 11 := by
      simp [Tasks.left, Tasks.init]
      rw [List.countP_replicate]; simp
    omega
  · -- induction on what is left
    have key : ∀ (k : Nat) (s : Tasks), s.left = k → s.Inv n → s.cancelled = true →
        ∃ bs s' r, (∀ a ∈ bs, Action.Orderly a) ∧ s.run bs = some s' ∧ s'.phase = .exited r := by
      intro k
      induction k with
      | zero =>
        intro s hk _ _
        cases hp : s.phase with
        | exited r => exact ⟨[], s, r, by simp, rfl, hp⟩
        | waiting => simp [Tasks.left, hp] at hk
        | draining r => simp [Tasks.left, hp] at hk
      | succ k ih =>
        intro s hk hi hc
        by_cases hp : ∀ r, s.phase ≠ .exited r
        · obtain ⟨a, s', ha, hs⟩ := tasks_orderly_step hi hc hp
          have hne : a ≠ .signal := by rintro rfl; exact ha
          have hl := tasks_left_step hs
          rw [if_neg hne] at hl
          obtain ⟨bs, s'', r, h1, h2, h3⟩ := ih s' (by omega) (tasks_inv_step hi hs) (tasks_cancelled_step hc hs)
          refine ⟨a :: bs, s'', r, ?_, by simp only [Tasks.run, hs]; exact h2, h3⟩
          intro b hb
          rcases List.mem_cons.mp hb with rfl | hb
          · exact ha
          · exact h1 b hb
        · simp only [ne_eq, not_forall, not_not] at hp
          obtain ⟨r, hr⟩ := hp
          exact ⟨[], s, r, by simp, rfl, hr⟩
    exact key _ s rfl hi hc

/-- C93, the part about failures that is true of the code: if no signal has arrived and some handler is still running when
the first end of a task is tasks_noticed, the daemon exits with the error of that task, and the exit status is a failure. -/
theorem C93_reported_partial (n : Nat) (as : List Action) (s : Tasks) (r : Except DaemonError Unit) (h : Reaches n as s)
    (hp : s.phase = .exited r) (as₁ : List Action) (t : Job) (hf : FirstNoticed as as₁ t) (hs : .signal ∉ as₁)
    (s₁ : Tasks) (h₁ : Reaches n as₁ s₁) (hrun : none ∈ s₁.handlers) :
    ∃ e, s₁.ended t = some e ∧ e ≠ .ok ∧ r = t.result e ∧ ∀ flushed, exitSuccess r flushed = false := by
  obtain ⟨s₁', e, h1, h2, h3⟩ := tasks_noticed h hf
  have : s₁' = s₁ := by unfold Reaches at h1 h₁; rw [h1] at h₁; exact Option.some.inj h₁
  subst this
  have hi := reaches_inv h1
  have hcan : s₁'.cancelled = false := by
    obtain ⟨_, hj⟩ := hf
    obtain ⟨_, hc⟩ := tasks_run_waiting (s := Tasks.init n) rfl hj.2 h1
    cases hx : s₁'.cancelled with
    | false => rfl
    | true => simp [hx, Tasks.init, hs] at hc
  have hne : s₁'.handlersEnded ≠ true := by
    intro hx
    rw [handlersEnded_iff] at hx
    exact hx _ hrun rfl
  have hok : e ≠ .ok := by
    rintro rfl
    cases t with
    | eventSub => exact hi.subOk hcan h2
    | monitor => exact hi.monitorOk hcan h2
    | processor => exact hne (hi.processorOk h2)
    | broadcaster => exact hne (hi.broadcasterOk h2)
    | updater => exact hne (hi.updaterEnded _ h2).2
  rw [hp] at h3
  simp only [reduceCtorEq, Phase.exited.injEq, false_or] at h3
  rw [if_neg hs] at h3
  refine ⟨e, h2, hok, h3, ?_⟩
  intro flushed
  rw [h3]
  cases e with
  | ok => exact absurd rfl hok
  | err => rfl
  | panic => rfl

/-- C93: a result of `Ok` although no signal has arrived means that a failure went unreported (or that there are no
handlers): it is the result of a task that ended because all handlers had, after one of them failed or panicked or
after the event subscription had failed. -/
theorem C93_unreported (n : Nat) (as : List Action) (s : Tasks) (h : Reaches n as s) (hp : s.phase = .exited (.ok ()))
    (as₁ : List Action) (t : Job) (hf : FirstNoticed as as₁ t) (hs : .signal ∉ as₁)
    (s₁ : Tasks) (h₁ : Reaches n as₁ s₁) :
    (t = .processor ∨ t = .broadcaster ∨ t = .updater) ∧ (∀ x ∈ s₁.handlers, x ≠ none) ∧
    (n = 0 ∨ some .err ∈ s₁.handlers ∨ some .panic ∈ s₁.handlers ∨
      s₁.ended .eventSub = some .err ∨ s₁.ended .eventSub = some .panic) := by
  obtain ⟨s₁', e, h1, h2, h3⟩ := tasks_noticed h hf
  have : s₁' = s₁ := by unfold Reaches at h1 h₁; rw [h1] at h₁; exact Option.some.inj h₁
  subst this
  have hi := reaches_inv h1
  have hcan : s₁'.cancelled = false := by
    obtain ⟨_, hj⟩ := hf
    obtain ⟨_, hc⟩ := tasks_run_waiting (s := Tasks.init n) rfl hj.2 h1
    cases hx : s₁'.cancelled with
    | false => rfl
    | true => simp [hx, Tasks.init, hs] at hc
  rw [hp] at h3
  simp only [reduceCtorEq, Phase.exited.injEq, false_or] at h3
  rw [if_neg hs] at h3
  have he : e = .ok := by
    cases e with
    | ok => rfl
    | err => simp [Job.result] at h3
    | panic => simp [Job.result] at h3
  subst he
  have hall : (t = .processor ∨ t = .broadcaster ∨ t = .updater) ∧ s₁'.handlersEnded = true := by
    cases t with
    | eventSub => exact absurd h2 (hi.subOk hcan)
    | monitor => exact absurd h2 (hi.monitorOk hcan)
    | processor => exact ⟨Or.inl rfl, hi.processorOk h2⟩
    | broadcaster => exact ⟨Or.inr (Or.inl rfl), hi.broadcasterOk h2⟩
    | updater => exact ⟨Or.inr (Or.inr rfl), (hi.updaterEnded _ h2).2⟩
  have hh := (handlersEnded_iff s₁').mp hall.2
  refine ⟨hall.1, hh, ?_⟩
  cases hl : s₁'.handlers with
  | nil => left; rw [← hi.count, hl]; rfl
  | cons x xs =>
    right
    have hx : x ∈ s₁'.handlers := by rw [hl]; exact List.mem_cons_self ..
    rw [← hl]
    match x, hx, hh x hx with
    | some .err, hx, _ => exact Or.inl hx
    | some .panic, hx, _ => exact Or.inr (Or.inl hx)
    | some .ok, hx, _ =>
      obtain ⟨e, he⟩ := Option.isSome_iff_exists.mp (hi.handlerOk hcan hx)
      cases e with
      | ok => exact absurd he (hi.subOk hcan)
      | err => exact Or.inr (Or.inr (Or.inl he))
      | panic => exact Or.inr (Or.inr (Or.inr he))

/-- C93, false of the code: when handlers fail, but not all of them, the daemon does not notice: no task is told to stop,
and nothing happens unless a signal arrives or something else fails. -/
theorem C93_silent (n : Nat) (as : List Action) (s : Tasks) (h : Reaches n as s)
    (ha : ∀ a ∈ as, ∃ i, a = .handlerEnds i .err) (hrun : none ∈ s.handlers) :
    s.phase = .waiting ∧ s.cancelled = false ∧ ∀ a, a.Orderly → s.step a = none := by
  obtain ⟨h1, h2, h3, h4, h5⟩ := tasks_silent_run h ha
  have hend : ∀ t, s.ended t = none := fun t => by rw [h1]; rfl
  have hcan : s.cancelled = false := h3
  have hph : s.phase = .waiting := h4
  have hx : ∀ x ∈ s.handlers, x = none ∨ x = some .err := by
    intro x hx
    rcases h5 x hx with hx | hx
    · exact Or.inl (List.eq_of_mem_replicate hx)
    · exact Or.inr hx
  have hne : s.handlersEnded = false := by
    cases hb : s.handlersEnded with
    | false => rfl
    | true => exact absurd rfl ((handlersEnded_iff s).mp hb _ hrun)
  refine ⟨hph, hcan, ?_⟩
  intro a ho
  cases a with
  | signal => exact absurd ho id
  | handlerEnds i e =>
    have : e = .ok := ho
    subst this
    unfold Tasks.step
    dsimp only
    rw [if_neg]
    rintro ⟨_, hm⟩
    simp [Tasks.handlerMayEnd, hcan, hend] at hm
  | ends t e =>
    unfold Tasks.step
    dsimp only
    rw [if_neg]
    rintro ⟨_, hm⟩
    cases t with
    | processor =>
      cases e with
      | ok =>
        simp only [Tasks.mayEnd, List.all_eq_true] at hm
        have := hm _ hrun
        simp at this
      | err =>
        simp only [Tasks.mayEnd, hne, Bool.false_and, Bool.or_false, List.contains_eq_mem, decide_eq_true_eq] at hm
        rcases hx _ hm with h | h <;> simp at h
      | panic => simp [Tasks.mayEnd] at hm
    | eventSub => have : e = .ok := ho; subst this; simp [Tasks.mayEnd, hcan] at hm
    | monitor => have : e = .ok := ho; subst this; simp [Tasks.mayEnd, hcan] at hm
    | broadcaster => have : e = .ok := ho; subst this; simp [Tasks.mayEnd, hne] at hm
    | updater => have : e = .ok := ho; subst this; simp [Tasks.mayEnd, hne] at hm
  | join t => simp [Tasks.step, hend]
  | exit => simp [Tasks.step, hph]

/-! ### Concrete schedules -/

/-- of two handlers one has failed: the hypotheses of `C93_silent` hold -/
example : ∃ s, Reaches 2 [.handlerEnds 0 .err] s ∧ none ∈ s.handlers := ⟨_, rfl, by decide⟩

/-- the node of the subscription fails while both handlers are running -/
def subFails : List Action :=
  [.ends .eventSub .err, .join .eventSub, .handlerEnds 0 .ok, .handlerEnds 1 .ok, .ends .processor .ok,
    .ends .updater .ok, .ends .broadcaster .ok, .join .processor, .join .updater, .ends .monitor .ok, .join .broadcaster,
    .join .monitor, .exit]

/-- the hypotheses of `C93_complete`, `C93_result`, `C93_stops` and `C93_reported_partial` hold -/
example : (∃ s, Reaches 2 subFails s ∧ s.phase = .exited (.error .eventSub)) ∧
    FirstNoticed subFails [.ends .eventSub .err] .eventSub ∧
    (∃ s₁, Reaches 2 [.ends .eventSub .err] s₁ ∧ none ∈ s₁.handlers) :=
  ⟨⟨_, rfl, rfl⟩, ⟨_, rfl, by simp⟩, ⟨_, rfl, by decide⟩⟩

/-- the hypotheses of `C93_shutdown` hold: a signal arrived, and one handler has ended -/
example : ∃ s, Reaches 2 [.signal, .handlerEnds 0 .ok] s ∧ s.cancelled = true := ⟨_, rfl, rfl⟩

/-- the only handler fails, and the end of the updater of the state is tasks_noticed first -/
def handlerFails : List Action :=
  [.handlerEnds 0 .err, .ends .updater .ok, .join .updater, .ends .processor .err, .join .processor, .ends .eventSub .ok,
    .join .eventSub, .ends .broadcaster .ok, .join .broadcaster, .ends .monitor .ok, .join .monitor, .exit]

/-- C93, false of the code: the daemon may exit with success, although no signal has arrived and its handler and the
event processor failed. -/
theorem C93_counterexample : ∃ s, Reaches 1 handlerFails s ∧ s.phase = .exited (.ok ()) ∧ .signal ∉ handlerFails ∧
    some .err ∈ s.handlers ∧ s.ended .processor = some .err ∧ exitSuccess (.ok ()) true = true :=
  ⟨_, rfl, rfl, by decide, by decide, rfl, rfl⟩

/-- the hypotheses of `C93_unreported` hold -/
example : FirstNoticed handlerFails [.handlerEnds 0 .err, .ends .updater .ok] .updater ∧
    .signal ∉ [Action.handlerEnds 0 .err, .ends .updater .ok] ∧
    ∃ s₁, Reaches 1 [.handlerEnds 0 .err, .ends .updater .ok] s₁ :=
  ⟨⟨_, rfl, by simp⟩, by decide, _, rfl⟩

/-- after a signal the last broadcast fails -/
def flushFails : List Action :=
  [.signal, .ends .eventSub .ok, .handlerEnds 0 .ok, .ends .updater .ok, .ends .processor .ok, .ends .broadcaster .err,
    .ends .monitor .ok, .join .broadcaster, .join .eventSub, .join .processor, .join .updater, .join .monitor, .exit]

/-- C93, false of the code: a daemon that is told to stop exits with success even if its last broadcast fails. -/
theorem C93_counterexample_flush : ∃ s, Reaches 1 flushFails s ∧ s.phase = .exited (.ok ()) ∧
    s.ended .broadcaster = some .err ∧ exitSuccess (.ok ()) true = true :=
  ⟨_, rfl, rfl, rfl, rfl⟩

/-! ### Where a handler stops -/

theorem consume_stop {A : Type} (items : List (Item A)) (rs : List HandleReply) (i b : Nat) (rep : HandleReply)
    (he : (consume items rs).1[i]? = some (.blockEnd b)) (hr : rs[i]? = some rep) (hc : rep.cancelled = true) :
    (consume items rs).1.length = i + 1 := by
  induction items generalizing rs i with
  | nil => simp [consume] at he
  | cons it items ih =>
    cases rs with
    | nil => simp at hr
    | cons r rs =>
      cases it with
      | lagged => simp [consume] at he
      | ok e =>
        unfold consume at he ⊢
        by_cases hh : (!r.handled) = true
        · rw [if_pos hh] at he ⊢
          cases i with
          | zero => rfl
          | succ i => simp at he
        · rw [if_neg hh] at he ⊢
          have later : ∀ (x : Event A), (x :: (consume items rs).1)[i]? = some (.blockEnd b) → x ≠ .blockEnd b ∨ 0 < i →
              (x :: (consume items rs).1).length = i + 1 := by
            intro x hx h0
            cases i with
            | zero =>
              simp only [List.getElem?_cons_zero, Option.some.injEq] at hx
              rcases h0 with h0 | h0
              · exact absurd hx h0
              · omega
            | succ i =>
              rw [List.getElem?_cons_succ] at hx hr
              rw [List.length_cons, ih rs i hx hr]
          cases e with
          | blockBegin c => exact later _ he (Or.inl (by simp))
          | abci a => exact later _ he (Or.inl (by simp))
          | blockEnd c =>
            dsimp only at he ⊢
            by_cases hn : (!r.notified) = true
            · rw [if_pos hn] at he ⊢
              cases i with
              | zero => rfl
              | succ i => simp at he
            · rw [if_neg hn] at he ⊢
              by_cases hcc : r.cancelled = true
              · rw [if_pos hcc] at he ⊢
                cases i with
                | zero => rfl
                | succ i => simp at he
              · rw [if_neg hcc] at he ⊢
                refine later _ he ?_
                cases i with
                | zero =>
                  simp only [List.getElem?_cons_zero, Option.some.injEq] at hr
                  rw [hr] at hcc
                  exact absurd hc hcc
                | succ i => exact Or.inr (by omega)

/-- C93: a handler that has been told to stop when it is done with the end of a block is given nothing after that block. -/
theorem C93_stops_after_block {R A : Type} (W : World R A) (f : StateFile) (r : Run) (h : Label × HandlerIn)
    (hh : r.handlers.find? (fun x => x.1 = h.1) = some h) (i b : Nat) (rep : HandleReply)
    (he : (handlerOut W f r h.1).1[i]? = some (.blockEnd b)) (hr : h.2.replies[i]? = some rep)
    (hc : rep.cancelled = true) : (handlerOut W f r h.1).1.length = i + 1 := by
  unfold handlerOut at he ⊢
  rw [hh] at he ⊢
  dsimp only at he ⊢
  unfold runHandler at he ⊢
  dsimp only at he ⊢
  split at he <;> exact consume_stop _ _ i b rep he hr hc

/-- told to stop, a handler finishes block 1 and leaves block 2 to the next run -/
example : consume (A := Nat) [.ok (.blockBegin 1), .ok (.abci 7), .ok (.blockEnd 1), .ok (.blockBegin 2)]
      [⟨true, true, true⟩, ⟨true, true, true⟩, ⟨true, true, true⟩, ⟨true, true, true⟩] =
    ([.blockBegin 1, .abci 7, .blockEnd 1], [1]) := by decide

end Amp.Ampd
