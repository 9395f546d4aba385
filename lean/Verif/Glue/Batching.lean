import Verif.Base.Prelude

/-!
# The batching contract (`contracts/batching/src`) and C63

The contract keeps no state.  What a batch does is decided by how the chain executes the sub-messages it
returns, so the model contains that part of the CosmWasm runtime: sub-messages run in order; a failure is
rolled back and reported to `reply` if the sub-message asked for it, and otherwise fails the transaction.
-/

namespace Amp.Batching

section
variable {M W V : Type}

/-- `cosmwasm_std::ReplyOn`, the two modes used -/
inductive ReplyOn
  | never
  | always
  deriving DecidableEq, Repr

/-- `cosmwasm_std::SubMsg` (`id` is only used with a reply) -/
structure SubMsg (M : Type) where
  id : Nat
  msg : M
  replyOn : ReplyOn
  deriving DecidableEq, Repr

/-- `contracts/batching/src/msg.rs:12-16` (`BatchMsg`) -/
structure BatchMsg (M : Type) where
  mustSucceed : List M
  canFail : List M
  deriving DecidableEq, Repr

/-- `contract.rs:47-50`: `enumerate().map(SubMsg::reply_always)`, starting to count at `i` -/
def enumerateFrom (i : Nat) : List M → List (SubMsg M)
  | [] => []
  | m :: t => ⟨i, m, .always⟩ :: enumerateFrom (i + 1) t

/-- `contract.rs:43-52` (`dispatch`); `add_messages` makes `SubMsg::new`, id 0 without reply. -/
def dispatch (b : BatchMsg M) : List (SubMsg M) :=
  b.mustSucceed.map (fun m => ⟨0, m, .never⟩) ++ enumerateFrom 0 b.canFail

/-- Events in a transaction: those emitted by a sub-message, and those emitted by this contract's
`reply`: repeated events of a successful sub-message, or `failed_msg` with attribute (id, error). -/
inductive Event (V : Type)
  | emitted (v : V)
  | repeated (v : V)
  | failedMsg (id : Nat) (err : Str)
  deriving DecidableEq, Repr

/-- `contract.rs:32-41` (`reply`): never fails and changes no state -/
def reply (id : Nat) (result : Except Str (List V)) : List (Event V) :=
  match result with
  | .ok evs => evs.map .repeated
  | .error err => [.failedMsg id err]

/-- The chain executing the sub-messages of a response in order (CosmWasm `dispatchSubmessages`): `run`
executes one message on the world, and on failure leaves no trace on it. -/
def runSubs (run : W → M → Except Str (W × List V)) (w : W) :
    List (SubMsg M) → Except Str (W × List (Event V))
  | [] => .ok (w, [])
  | sm :: t =>
    match run w sm.msg, sm.replyOn with
    | .error e, .never => .error e
    | .error e, .always =>
      match runSubs run w t with
      | .error e' => .error e'
      | .ok (w', evs) => .ok (w', reply sm.id (.error e) ++ evs)
    | .ok (w1, vs), .never =>
      match runSubs run w1 t with
      | .error e' => .error e'
      | .ok (w', evs) => .ok (w', vs.map .emitted ++ evs)
    | .ok (w1, vs), .always =>
      match runSubs run w1 t with
      | .error e' => .error e'
      | .ok (w', evs) => .ok (w', vs.map .emitted ++ reply sm.id (.ok vs) ++ evs)

/-- A whole `Batch` transaction (`contract.rs:20-30`). -/
def runBatch (run : W → M → Except Str (W × List V)) (w : W) (b : BatchMsg M) :
    Except Str (W × List (Event V)) :=
  runSubs run w (dispatch b)

/-! ## Specification -/

/-- run messages in order, all of which have to succeed -/
def runAll (run : W → M → Except Str (W × List V)) (w : W) : List M → Except Str W
  | [] => .ok w
  | m :: t =>
    match run w m with
    | .error e => .error e
    | .ok (w1, _) => runAll run w1 t

/-- run messages in order, skipping the effects of those that fail -/
def runSkipping (run : W → M → Except Str (W × List V)) (w : W) : List M → W
  | [] => w
  | m :: t =>
    match run w m with
    | .error _ => runSkipping run w t
    | .ok (w1, _) => runSkipping run w1 t

/-- the error, if any, with which the `i`-th message of such a run fails -/
def failureAt (run : W → M → Except Str (W × List V)) (w : W) (ms : List M) (i : Nat) : Option Str :=
  match ms[i]? with
  | none => none
  | some m =>
    match run (runSkipping run w (ms.take i)) m with
    | .error e => some e
    | .ok _ => none

/-- the failures reported in a list of events -/
def reported : List (Event V) → List (Nat × Str)
  | [] => []
  | .failedMsg i e :: t => (i, e) :: reported t
  | .emitted _ :: t => reported t
  | .repeated _ :: t => reported t

/-! ## Proofs -/

theorem reported_append (a b : List (Event V)) : reported (a ++ b) = reported a ++ reported b := by
  induction a with
  | nil => rfl
  | cons e t ih => cases e <;> simp [reported, ih]

theorem reported_emitted (l : List V) : reported (l.map Event.emitted) = [] := by
  induction l with
  | nil => rfl
  | cons _ _ ih => simpa [reported] using ih

theorem reported_repeated (l : List V) : reported (l.map Event.repeated) = [] := by
  induction l with
  | nil => rfl
  | cons _ _ ih => simpa [reported] using ih

theorem runSubs_must (run : W → M → Except Str (W × List V)) (ms : List M) (rest : List (SubMsg M)) :
    ∀ w, (∀ e, runAll run w ms = .error e →
        runSubs run w (ms.map (fun m => ⟨0, m, .never⟩) ++ rest) = .error e) ∧
      (∀ w1, runAll run w ms = .ok w1 →
        (∀ e, runSubs run w1 rest = .error e →
          runSubs run w (ms.map (fun m => ⟨0, m, .never⟩) ++ rest) = .error e) ∧
        (∀ w' evs, runSubs run w1 rest = .ok (w', evs) → ∃ evs',
          runSubs run w (ms.map (fun m => ⟨0, m, .never⟩) ++ rest) = .ok (w', evs') ∧
          reported evs' = reported evs)) := by
  induction ms with
  | nil =>
    intro w
    refine ⟨by simp [runAll], ?_⟩
    intro w1 h
    simp only [runAll, Except.ok.injEq] at h
    subst h
    exact ⟨fun e h => h, fun w' evs h => ⟨evs, h, rfl⟩⟩
  | cons m t ih =>
    intro w
    cases hr : run w m with
    | error e0 =>
      refine ⟨?_, ?_⟩
      · intro e h
        simp only [runAll, hr, Except.error.injEq] at h
        subst h
        simp [runSubs, hr]
      · intro w1 h; simp [runAll, hr] at h
    | ok x =>
      obtain ⟨wm, vs⟩ := x
      obtain ⟨ih1, ih2⟩ := ih wm
      refine ⟨?_, ?_⟩
      · intro e h
        simp only [runAll, hr] at h
        simp only [List.map_cons, List.cons_append, runSubs, hr, ih1 e h]
      · intro w1 h
        simp only [runAll, hr] at h
        obtain ⟨h1, h2⟩ := ih2 w1 h
        refine ⟨?_, ?_⟩
        · intro e he
          simp only [List.map_cons, List.cons_append, runSubs, hr, h1 e he]
        · intro w' evs he
          obtain ⟨evs', h3, h4⟩ := h2 w' evs he
          refine ⟨vs.map .emitted ++ evs', ?_, ?_⟩
          · simp only [List.map_cons, List.cons_append, runSubs, hr, h3]
          · rw [reported_append, reported_emitted, h4]; rfl

theorem runSubs_optional (run : W → M → Except Str (W × List V)) (ms : List M) :
    ∀ w i, ∃ evs, runSubs run w (enumerateFrom i ms) = .ok (runSkipping run w ms, evs) ∧
      ∀ j e, (j, e) ∈ reported evs ↔ ∃ k, j = i + k ∧ failureAt run w ms k = some e := by
  induction ms with
  | nil => intro w i; exact ⟨[], rfl, by simp [reported, failureAt]⟩
  | cons m t ih =>
    intro w i
    cases hr : run w m with
    | error e0 =>
      obtain ⟨evs, h1, h2⟩ := ih w (i + 1)
      refine ⟨reply i (.error e0) ++ evs, ?_, ?_⟩
      · simp only [enumerateFrom, runSubs, hr, h1, runSkipping]
      · intro j e
        rw [reported_append, List.mem_append, h2]
        simp only [reply, reported, List.mem_singleton, Prod.mk.injEq]
        constructor
        · rintro (⟨rfl, rfl⟩ | ⟨k, rfl, hk⟩)
          · exact ⟨0, rfl, by simp [failureAt, runSkipping, hr]⟩
          · refine ⟨k + 1, by omega, ?_⟩
            simpa [failureAt, runSkipping, hr] using hk
        · rintro ⟨k, rfl, hk⟩
          cases k with
          | zero => left; simp [failureAt, runSkipping, hr] at hk; exact ⟨rfl, hk.symm⟩
          | succ k =>
            right
            exact ⟨k, by omega, by simpa [failureAt, runSkipping, hr] using hk⟩
    | ok x =>
      obtain ⟨wm, vs⟩ := x
      obtain ⟨evs, h1, h2⟩ := ih wm (i + 1)
      refine ⟨vs.map .emitted ++ reply i (.ok vs) ++ evs, ?_, ?_⟩
      · simp only [enumerateFrom, runSubs, hr, h1, runSkipping]
      · intro j e
        rw [reported_append, reported_append, reported_emitted]
        simp only [reply, reported_repeated, List.nil_append]
        rw [h2]
        constructor
        · rintro ⟨k, rfl, hk⟩
          refine ⟨k + 1, by omega, ?_⟩
          simpa [failureAt, runSkipping, hr] using hk
        · rintro ⟨k, rfl, hk⟩
          cases k with
          | zero => simp [failureAt, runSkipping, hr] at hk
          | succ k => exact ⟨k, by omega, by simpa [failureAt, runSkipping, hr] using hk⟩

/-- C63: if a mandatory message fails, the whole batch fails with its error (and, transactions being
atomic, changes nothing). -/
theorem C63_mandatory_failure (run : W → M → Except Str (W × List V)) (w : W) (b : BatchMsg M)
    (e : Str) : runBatch run w b = .error e ↔ runAll run w b.mustSucceed = .error e := by
  obtain ⟨h1, h2⟩ := runSubs_must run b.mustSucceed (enumerateFrom 0 b.canFail) w
  unfold runBatch dispatch
  cases hm : runAll run w b.mustSucceed with
  | error e' => rw [h1 e' hm]; simp
  | ok w1 =>
    obtain ⟨evs, h3, _⟩ := runSubs_optional run b.canFail w1 0
    obtain ⟨evs', h4, _⟩ := (h2 w1 hm).2 _ _ h3
    rw [h4]
    simp

/-- C63: otherwise the batch succeeds: the mandatory messages run first and in order, then the optional
ones in order, each failing one leaving no trace; and `failed_msg` is reported for position `i` with
error `e` exactly if the `i`-th optional message failed with `e`. -/
theorem C63_batch (run : W → M → Except Str (W × List V)) (w w1 : W) (b : BatchMsg M)
    (h : runAll run w b.mustSucceed = .ok w1) :
    ∃ evs, runBatch run w b = .ok (runSkipping run w1 b.canFail, evs) ∧
      ∀ i e, (i, e) ∈ reported evs ↔ failureAt run w1 b.canFail i = some e := by
  obtain ⟨_, h2⟩ := runSubs_must run b.mustSucceed (enumerateFrom 0 b.canFail) w
  obtain ⟨evs, h3, h5⟩ := runSubs_optional run b.canFail w1 0
  obtain ⟨evs', h4, h6⟩ := (h2 w1 h).2 _ _ h3
  refine ⟨evs', h4, ?_⟩
  intro i e
  rw [h6, h5]
  simp

/-- C63: the sub-messages returned are the mandatory ones, then the optional ones, all unchanged and in
order, the optional ones tagged with their position. -/
theorem C63_dispatch (b : BatchMsg M) :
    (dispatch b).map (·.msg) = b.mustSucceed ++ b.canFail ∧
    (∀ (i : Nat) m, b.mustSucceed[i]? = some m → (dispatch b)[i]? = some ⟨0, m, .never⟩) ∧
    (∀ (i : Nat) m, b.canFail[i]? = some m →
      (dispatch b)[b.mustSucceed.length + i]? = some ⟨i, m, .always⟩) := by
  have henum : ∀ (l : List M) (i : Nat), (enumerateFrom i l).map (·.msg) = l := by
    intro l
    induction l with
    | nil => intro i; rfl
    | cons m t ih => intro i; simp [enumerateFrom, ih]
  have hget : ∀ (l : List M) (k i : Nat) m, l[i]? = some m →
      (enumerateFrom k l)[i]? = some ⟨k + i, m, .always⟩ := by
    intro l
    induction l with
    | nil => intro k i m h; simp at h
    | cons a t ih =>
      intro k i m h
      cases i with
      | zero => simp at h; simp [enumerateFrom, h]
      | succ i =>
        simp only [List.getElem?_cons_succ] at h
        simp only [enumerateFrom, List.getElem?_cons_succ]
        rw [ih (k + 1) i m h]
        simp only [Option.some.injEq, SubMsg.mk.injEq, and_true]
        omega
  refine ⟨?_, ?_, ?_⟩
  · simp [dispatch, henum, Function.comp_def]
  · intro i m h
    have hi : i < b.mustSucceed.length := (List.getElem?_eq_some_iff.mp h).1
    unfold dispatch
    rw [List.getElem?_append_left (by simpa using hi)]
    simp [h]
  · intro i m h
    unfold dispatch
    rw [List.getElem?_append_right (by simp)]
    simp only [List.length_map, Nat.add_sub_cancel_left]
    rw [hget _ 0 i m h]
    simp

end

/-- Example world: a counter; message `n` adds `n`, and fails if the sum exceeds 10. -/
def exRun (w n : Nat) : Except Str (Nat × List Nat) :=
  if w + n ≤ 10 then .ok (w + n, [n]) else .error "overflow".toList

example : runBatch exRun 0 ⟨[1, 2], [9, 3, 8, 4]⟩ = .ok (10, [.emitted 1, .emitted 2,
      .failedMsg 0 "overflow".toList, .emitted 3, .repeated 3, .failedMsg 2 "overflow".toList,
      .emitted 4, .repeated 4]) ∧
    runAll exRun 0 [1, 2] = .ok 3 ∧
    runBatch exRun 0 ⟨[1, 12, 2], [3]⟩ = .error "overflow".toList := by decide

end Amp.Batching
