import Verif.Ampd.Sequence
import Verif.Ampd.QueueProps

/-!
# C102: the daemon's sequence number and the chain's
-/

namespace Amp.Ampd

variable {M : Type}

/-- a broadcast that succeeds was found on the chain -/
theorem broadcast_ok_found {cfg : BroadcastCfg} {c : Client M} {msgs : List M} {r : Replies}
    (h : (broadcast cfg c msgs r).2.isOk = true) :
    (∃ i, r.lookups i = .found 0) ∧ (broadcast cfg c msgs r).1.sequence = c.sequence + 1 := by
  have loop : ∀ n i k, confirmLoop r.lookups n i = (k, .ok ()) → ∃ j, r.lookups j = .found 0 := by
    intro n
    induction n with
    | zero => intro i k h; simp [confirmLoop] at h
    | succ n ih =>
      intro i k h
      rw [confirmLoop] at h
      cases hl : r.lookups i with
      | unavailable => rw [hl] at h; exact ih (i + 1) k h
      | notFound => rw [hl] at h; exact ih (i + 1) k h
      | found code =>
        rw [hl, evaluateResponse] at h
        by_cases hc : code = 0
        · subst hc; exact ⟨i, hl⟩
        · rw [if_neg hc] at h; simp at h
  unfold broadcast at h ⊢
  cases hg : estimateFee cfg r.gas with
  | error e => rw [hg] at h; cases h
  | ok p =>
    rw [hg] at h
    dsimp only at h ⊢
    split at h
    · cases h
    · split at h
      · cases h
      · cases hc : (confirmTx cfg r.lookups).2 with
        | error e => rw [hc] at h; cases h
        | ok u =>
          rw [hc] at h
          dsimp only at h
          split at h
          · cases h
          · rename_i h1 h2 h3
            refine ⟨?_, ?_⟩
            · unfold confirmTx at hc
              split at hc
              · cases hc
              · exact loop _ _ _ (Prod.ext rfl hc)
            · rw [if_neg h1, if_neg h2]
              simp only
              rw [if_neg h3]

theorem in_step {cfg : BroadcastCfg} {a : Account M} {u : Use M} (ht : a.Truthful u) (hu : u.alone = true)
    (hi : a.running = true → a.client.sequence = a.expected) :
    (a.use cfg u).running = true → (a.use cfg u).client.sequence = (a.use cfg u).expected := by
  intro h
  cases u with
  | other => cases hu
  | daemon msgs r included =>
    unfold Account.use at h ⊢
    dsimp only at h ⊢
    by_cases hr : a.running = true
    · rw [if_pos hr] at h ⊢
      dsimp only at h ⊢
      obtain ⟨⟨i, hf⟩, hs⟩ := broadcast_ok_found h
      rw [hs, ht.2 i 0 hf, hi hr]
      rfl
    · rw [if_neg hr] at h; exact absurd h hr

theorem after_in_step {cfg : BroadcastCfg} : ∀ (us : List (Use M)) (a : Account M), a.AllTruthful cfg us →
    (∀ u ∈ us, u.alone = true) → (a.running = true → a.client.sequence = a.expected) →
    ((a.after cfg us).running = true → (a.after cfg us).client.sequence = (a.after cfg us).expected) := by
  intro us
  induction us with
  | nil => intro a _ _ h; exact h
  | cons u us ih =>
    intro a ht hu hi
    exact ih _ ht.2 (fun v hv => hu v (List.mem_cons_of_mem _ hv)) (in_step ht.1 (hu u (by simp)) hi)

/-- The full statement: in every history, every transaction of the daemon has the number that the chain expects. -/
def InStep (cfg : BroadcastCfg) (M : Type) : Prop := ∀ (seq : Nat) (us : List (Use M)) (msgs : List M) (r : Replies) (t : Tx M),
  (Account.mk (M := M) ⟨seq, []⟩ seq true).AllTruthful cfg us →
  let a := (Account.mk (M := M) ⟨seq, []⟩ seq true).after cfg us
  a.running = true → (broadcast cfg a.client msgs r).1.sent = a.client.sent ++ [t] → t.sequence = a.expected

/-- C102, if nobody else uses the account while the daemon runs: every transaction has the number that the chain expects,
whatever failed or was lost before. -/
theorem C102_in_step_partial (cfg : BroadcastCfg) (seq : Nat) (us : List (Use M)) (msgs : List M) (r : Replies) (t : Tx M)
    (ht : (Account.mk (M := M) ⟨seq, []⟩ seq true).AllTruthful cfg us) (hu : ∀ u ∈ us, u.alone = true)
    (a : Account M) (ha : a = (Account.mk (M := M) ⟨seq, []⟩ seq true).after cfg us) (hr : a.running = true)
    (hs : (broadcast cfg a.client msgs r).1.sent = a.client.sent ++ [t]) : t.sequence = a.expected := by
  have h := after_in_step us _ ht hu (fun _ => rfl)
  rw [← ha] at h
  rw [← h hr]
  rcases broadcast_cases cfg a.client msgs r with h1 | ⟨gas, fee, h1, -⟩
  · rw [h1.1] at hs
    have := congrArg List.length hs
    simp at this
  · rw [h1] at hs
    have := List.append_cancel_left hs
    simp only [List.cons.injEq, and_true] at this
    rw [← this]

/-- C102: once the account was used by someone else, such as a command run beside the daemon, the chain takes nothing from the
daemon any more: the next broadcast fails and with it the daemon stops sending. -/
theorem C102_other_use (cfg : BroadcastCfg) (a : Account M) (hr : a.running = true) (hlag : a.client.sequence < a.expected)
    (us : List (Use M)) (hu : ∀ u ∈ us, u = .other) (msgs : List M) (r : Replies) (included : Option Nat)
    (ht : ((a.after cfg us).Truthful (.daemon msgs r included))) :
    included = none ∧ ((a.after cfg us).use cfg (.daemon msgs r included)).running = false := by
  have hc : ∀ (us : List (Use M)) (a : Account M), (∀ u ∈ us, u = .other) →
      (a.after cfg us).client = a.client ∧ (a.after cfg us).running = a.running ∧ a.expected ≤ (a.after cfg us).expected := by
    intro us
    induction us with
    | nil => intro a _; exact ⟨rfl, rfl, Nat.le_refl _⟩
    | cons u us ih =>
      intro a hu
      have hu0 := hu u (by simp)
      subst hu0
      obtain ⟨h1, h2, h3⟩ := ih (a.use cfg .other) (fun v hv => hu v (List.mem_cons_of_mem _ hv))
      refine ⟨h1, h2, ?_⟩
      have : (a.use cfg (.other : Use M)).expected = a.expected + 1 := rfl
      have e : a.after cfg (.other :: us) = (a.use cfg .other).after cfg us := rfl
      rw [e]
      omega
  obtain ⟨h1, h2, h3⟩ := hc us a hu
  have hin : included = none := by
    cases included with
    | none => rfl
    | some code =>
      have := (ht.1 rfl).2.2
      rw [h1] at this
      omega
  refine ⟨hin, ?_⟩
  subst hin
  rw [Account.use, if_pos (by rw [h2]; exact hr)]
  dsimp only
  cases hb : (broadcast cfg (a.after cfg us).client msgs r).2.isOk with
  | false => rfl
  | true =>
    obtain ⟨⟨i, hf⟩, -⟩ := broadcast_ok_found hb
    cases ht.2 i 0 hf

/-- a broadcast that works -/
def exWorks : Replies := ⟨some 100, true, true, fun i => if i = 0 then .notFound else .found 0⟩

/-- replies about a transaction that is not taken -/
def exStuck : Replies := ⟨some 100, true, true, fun _ => .notFound⟩

/-- a history: two transactions are taken, then a command of the operator uses the account -/
def exUses : List (Use Nat) := [.daemon [1] exWorks (some 0), .daemon [2, 3] exWorks (some 0), .other]

theorem exUses_truthful : (Account.mk (M := Nat) ⟨20, []⟩ 20 true).AllTruthful exCfg exUses := by
  have look : ∀ i code, exWorks.lookups i = .found code → (some 0 : Option Nat) = some code := by
    intro i code h
    simp only [exWorks] at h
    split at h
    · cases h
    · cases h; rfl
  exact ⟨⟨fun _ => ⟨rfl, rfl, rfl⟩, look⟩, ⟨fun _ => ⟨rfl, rfl, by decide⟩, look⟩, trivial, trivial⟩

example : ((Account.mk (M := Nat) ⟨20, []⟩ 20 true).after exCfg (exUses.take 2)).running = true ∧
    ((Account.mk (M := Nat) ⟨20, []⟩ 20 true).after exCfg (exUses.take 2)).expected = 22 ∧
    ((Account.mk (M := Nat) ⟨20, []⟩ 20 true).after exCfg exUses).client.sequence = 22 ∧
    ((Account.mk (M := Nat) ⟨20, []⟩ 20 true).after exCfg exUses).expected = 23 ∧
    ((Account.mk (M := Nat) ⟨20, []⟩ 20 true).after exCfg (exUses ++ [.daemon [4] exStuck none])).running = false := by decide

/-- C102: so the full statement fails. -/
theorem C102_shared_account : ¬ InStep exCfg Nat := by
  intro h
  exact absurd (h 20 exUses [4] exStuck ⟨[4], 100, 100, 22⟩ exUses_truthful (by decide) (by decide)) (by decide)

end Amp.Ampd
