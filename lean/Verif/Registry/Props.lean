import Verif.Registry.Lemmas

/-!
# C32 - C37: the service registry

For every governance address and every list of calls by arbitrary senders, with arbitrary coins and at
arbitrary times.
-/

namespace Amp.Registry

open Amp.Router

/-! ### helper lemmas about the log -/

theorem deposits_snoc (log : List (Call × Resp)) (e : Call × Resp) (n d : Str) (a : Addr) :
    deposits (log ++ [e]) n d a = deposits log n d a + depositBy n d a e := by
  simp [deposits]

theorem payouts_snoc (log : List (Call × Resp)) (e : Call × Resp) (n : Str) (a : Addr) :
    payouts (log ++ [e]) n a = payouts log n a + payoutTo n a e := by
  simp [payouts]

theorem lastOwn_snoc (log : List (Call × Resp)) (e : Call × Resp) (n : Str) (a : Addr) :
    lastOwn (log ++ [e]) n a = if ownCall n a e = true then some e.1 else lastOwn log n a := by
  unfold lastOwn
  rw [List.filter_append]
  by_cases h : ownCall n a e = true
  · simp [h]
  · simp [h]

theorem services_step {s s' : State} {c : Call} {r : Resp} (h : exec s c = .ok (s', r)) :
    s'.governance = s.governance ∧
    ((∃ n sv, c.msg = .registerService n sv ∧ c.sender = s.governance ∧
        findService s.services n = none ∧ s'.services = s.services ++ [(n, sv)]) ∨
      (∀ n sv, c.msg ≠ .registerService n sv) ∧ s'.services = s.services) := by
  rcases exec_ok h with ⟨n, sv, hm, hg, hx⟩ | ⟨n, ws, x, _, hm, hx⟩ | ⟨n, chains, hm, hx⟩ |
    ⟨n, hm, hx⟩ | ⟨n, hm, hx⟩ | ⟨n, hm, hx⟩
  · obtain ⟨hn, _, rfl⟩ := register_ok hx
    exact ⟨rfl, Or.inl ⟨n, sv, hm, hg, hn, rfl⟩⟩
  · obtain ⟨sv, hsv, _, rfl⟩ := updateAuth_ok hx
    obtain ⟨h1, h2, _⟩ := foldAuth n x ws s
    refine ⟨h2, Or.inr ⟨?_, h1⟩⟩
    rcases hm with ⟨hm, _⟩ | ⟨hm, _⟩ <;> simp [hm]
  · obtain ⟨sv, w, hsv, hw, _, rfl⟩ := declare_ok hx
    exact ⟨rfl, Or.inr ⟨by simp [hm], rfl⟩⟩
  · obtain ⟨sv, hsv, _, rfl, _⟩ := bond_ok hx
    exact ⟨rfl, Or.inr ⟨by simp [hm], rfl⟩⟩
  · obtain ⟨sv, w, hsv, hw, _, rfl, _⟩ := unbond_ok hx
    exact ⟨rfl, Or.inr ⟨by simp [hm], rfl⟩⟩
  · obtain ⟨sv, w, t, hsv, hw, _, _, rfl, _⟩ := claim_ok hx
    exact ⟨rfl, Or.inr ⟨by simp [hm], rfl⟩⟩

/-- services never change once registered -/
theorem findService_step {s s' : State} {c : Call} {r : Resp} (h : exec s c = .ok (s', r)) {n : Str}
    {sv : Service} (hn : findService s.services n = some sv) :
    findService s'.services n = some sv := by
  rcases (services_step h).2 with ⟨m, x, _, _, _, hs⟩ | ⟨_, hs⟩
  · rw [hs, findService_append, hn]
  · rw [hs]; exact hn

/-- calls about unregistered services fail -/
theorem no_service {s s' : State} {c : Call} {r : Resp} (h : exec s c = .ok (s', r)) {n : Str}
    (hn : findService s.services n = none) :
    c.msg ≠ .bondWorker n ∧ c.msg ≠ .unbondWorker n ∧ c.msg ≠ .claimStake n ∧
      (∀ chains, c.msg ≠ .declareChainSupport n chains) ∧ (∀ ws, c.msg ≠ .authorizeWorkers ws n) ∧
      (∀ ws, c.msg ≠ .unauthorizeWorkers ws n) := by
  refine ⟨?_, ?_, ?_, ?_, ?_, ?_⟩
  · intro hm; simp [exec, hm, bondWorker, hn] at h
  · intro hm; simp [exec, hm, unbondWorker, hn] at h
  · intro hm; simp [exec, hm, claimStake, hn] at h
  · intro ch hm; simp [exec, hm, declareChains, hn] at h
  · intro ch hm; simp only [exec, hm, updateAuth, hn] at h; split at h <;> simp at h
  · intro ch hm; simp only [exec, hm, updateAuth, hn] at h; split at h <;> simp at h

/-- how one call changes the stake and the bonding state of one worker -/
theorem stake_step {s s' : State} {c : Call} {r : Resp} (h : exec s c = .ok (s', r)) (n : Str)
    (a : Addr) :
    (∃ sv, c.sender = a ∧ c.msg = .bondWorker n ∧ findService s.services n = some sv ∧ r = {} ∧
      stakeOf s' n a = stakeOf s n a + firstOf sv.denom c.funds ∧
      bondingOf s' n a = .bonded (stakeOf s n a + firstOf sv.denom c.funds) ∧
      (findWorker s n a ≠ none → stakeOf s n a + firstOf sv.denom c.funds ≠ 0)) ∨
    (∃ sv, c.sender = a ∧ c.msg = .unbondWorker n ∧ findService s.services n = some sv ∧ r = {} ∧
      stakeOf s' n a = stakeOf s n a ∧ bondingOf s' n a = .unbonding (stakeOf s n a) c.time ∧
      (bondingOf s n a = .bonded (stakeOf s n a) ∨
        bondingOf s n a = .requestedUnbonding (stakeOf s n a))) ∨
    (∃ sv t, c.sender = a ∧ c.msg = .claimStake n ∧ findService s.services n = some sv ∧
      bondingOf s n a = .unbonding (stakeOf s n a) t ∧
      t + sv.unbondingDays * dayNanos ≤ c.time ∧ stakeOf s' n a = 0 ∧
      bondingOf s' n a = .unbonded ∧ r = { sends := [(a, (sv.denom, stakeOf s n a))] }) ∨
    (ownCall n a (c, r) = false ∧ stakeOf s' n a = stakeOf s n a ∧
      bondingOf s' n a = bondingOf s n a) := by
  rcases exec_ok h with ⟨m, sv, hm, hg, hx⟩ | ⟨m, ws, x, _, hm, hx⟩ | ⟨m, chains, hm, hx⟩ |
    ⟨m, hm, hx⟩ | ⟨m, hm, hx⟩ | ⟨m, hm, hx⟩
  · obtain ⟨hn, _, rfl⟩ := register_ok hx
    exact Or.inr (Or.inr (Or.inr ⟨by simp [ownCall, hm], rfl, rfl⟩))
  · obtain ⟨sv, hsv, _, rfl⟩ := updateAuth_ok hx
    refine Or.inr (Or.inr (Or.inr ⟨?_, foldAuth_stake _ _ _ _ _ _, ?_⟩))
    · rcases hm with ⟨hm, _⟩ | ⟨hm, _⟩ <;> simp [ownCall, hm]
    · unfold bondingOf
      rw [(foldAuth m x ws s).2.2.2]
      by_cases hh : n = m ∧ a ∈ ws
      · rw [if_pos hh]
        simp only [base]
        cases findWorker s n a <;> rfl
      · rw [if_neg hh]
  · obtain ⟨sv, w, hsv, hw, _, rfl⟩ := declare_ok hx
    exact Or.inr (Or.inr (Or.inr ⟨by simp [ownCall, hm], rfl, rfl⟩))
  · obtain ⟨sv, hsv, hr, rfl, hne⟩ := bond_ok hx
    by_cases hh : n = m ∧ a = c.sender
    · obtain ⟨rfl, rfl⟩ := hh
      refine Or.inl ⟨sv, rfl, hm, hsv, hr, ?_, ?_, hne⟩
      · rw [stakeOf_save]; simp [BondingState.amount]
      · unfold bondingOf; rw [findWorker_save]; simp
    · refine Or.inr (Or.inr (Or.inr ⟨?_, ?_, ?_⟩))
      · simp only [ownCall, hm, Msg.bondWorker.injEq, reduceCtorEq, decide_false, Bool.or_false,
          Bool.and_eq_false_iff, decide_eq_false_iff_not]
        by_cases h1 : c.sender = a
        · right; intro h2; exact hh ⟨h2.symm, h1.symm⟩
        · left; exact h1
      · rw [stakeOf_save, if_neg hh]
      · unfold bondingOf; rw [findWorker_save, if_neg hh]
  · obtain ⟨sv, w, hsv, hw, hr, rfl, hb⟩ := unbond_ok hx
    by_cases hh : n = m ∧ a = c.sender
    · obtain ⟨rfl, rfl⟩ := hh
      refine Or.inr (Or.inl ⟨sv, rfl, hm, hsv, hr, ?_, ?_, ?_⟩)
      · rw [stakeOf_save]; simp [BondingState.amount]
      · unfold bondingOf; rw [findWorker_save]; simp
      · unfold bondingOf; rw [hw]; exact hb
    · refine Or.inr (Or.inr (Or.inr ⟨?_, ?_, ?_⟩))
      · simp only [ownCall, hm, Msg.unbondWorker.injEq, reduceCtorEq, decide_false, Bool.or_false,
          Bool.false_or, Bool.and_eq_false_iff, decide_eq_false_iff_not]
        by_cases h1 : c.sender = a
        · right; intro h2; exact hh ⟨h2.symm, h1.symm⟩
        · left; exact h1
      · rw [stakeOf_save, if_neg hh]
      · unfold bondingOf; rw [findWorker_save, if_neg hh]
  · obtain ⟨sv, w, t, hsv, hw, hb, ht, rfl, hr⟩ := claim_ok hx
    by_cases hh : n = m ∧ a = c.sender
    · obtain ⟨rfl, rfl⟩ := hh
      refine Or.inr (Or.inr (Or.inl ⟨sv, t, rfl, hm, hsv, ?_, ht, ?_, ?_, hr⟩))
      · unfold bondingOf; rw [hw]; exact hb
      · rw [stakeOf_save]; simp [BondingState.amount]
      · unfold bondingOf; rw [findWorker_save]; simp
    · refine Or.inr (Or.inr (Or.inr ⟨?_, ?_, ?_⟩))
      · simp only [ownCall, hm, Msg.claimStake.injEq, reduceCtorEq, decide_false, Bool.or_false,
          Bool.false_or, Bool.and_eq_false_iff, decide_eq_false_iff_not]
        by_cases h1 : c.sender = a
        · right; intro h2; exact hh ⟨h2.symm, h1.symm⟩
        · left; exact h1
      · rw [stakeOf_save, if_neg hh]
      · unfold bondingOf; rw [findWorker_save, if_neg hh]

/-- claims pay only the caller -/
theorem claim_sends {s s' : State} {c : Call} {r : Resp} (h : exec s c = .ok (s', r)) {n : Str}
    (hm : c.msg = .claimStake n) : ∃ sv t, findService s.services n = some sv ∧
      bondingOf s n c.sender = .unbonding (stakeOf s n c.sender) t ∧
      t + sv.unbondingDays * dayNanos ≤ c.time ∧
      r.sends = [(c.sender, (sv.denom, stakeOf s n c.sender))] := by
  rcases stake_step h n c.sender with ⟨sv, _, h2, _⟩ | ⟨sv, _, h2, _⟩ |
    ⟨sv, t, _, _, h3, h4, h5, _, _, h6⟩ | ⟨h1, _⟩
  · rw [hm] at h2; simp at h2
  · rw [hm] at h2; simp at h2
  · exact ⟨sv, t, h3, h4, h5, by rw [h6]⟩
  · simp [ownCall, hm] at h1

theorem other_sends {s s' : State} {c : Call} {r : Resp} (h : exec s c = .ok (s', r))
    (hm : ∀ n, c.msg ≠ .claimStake n) : r.sends = [] := by
  rcases exec_ok h with ⟨n, sv, _, _, hx⟩ | ⟨n, ws, x, _, _, hx⟩ | ⟨n, chains, _, hx⟩ |
    ⟨n, _, hx⟩ | ⟨n, _, hx⟩ | ⟨n, hm', hx⟩
  · obtain ⟨_, rfl, _⟩ := register_ok hx; rfl
  · obtain ⟨_, _, rfl, _⟩ := updateAuth_ok hx; rfl
  · obtain ⟨_, _, _, _, rfl, _⟩ := declare_ok hx; rfl
  · obtain ⟨_, _, rfl, _⟩ := bond_ok hx; rfl
  · obtain ⟨_, _, _, _, rfl, _⟩ := unbond_ok hx; rfl
  · exact absurd hm' (hm n)

theorem registered_snoc (log : List (Call × Resp)) (e : Call × Resp) (n : Str) :
    registered (log ++ [e]) n =
      match registered log n with
      | some x => some x
      | none => registered [e] n := by
  induction log with
  | nil => rfl
  | cons x t ih =>
    obtain ⟨⟨snd, fu, ti, msg⟩, r⟩ := x
    cases msg with
    | registerService m sv =>
      simp only [List.cons_append, registered]
      by_cases hm : m = n
      · simp [hm]
      · simp only [if_neg hm]; exact ih
    | authorizeWorkers => exact ih
    | unauthorizeWorkers => exact ih
    | declareChainSupport => exact ih
    | bondWorker => exact ih
    | unbondWorker => exact ih
    | claimStake => exact ih

theorem services_registered (gov : Addr) (cs : List Call) (n : Str) :
    findService (stateAfter gov cs).services n = registered (history gov cs) n := by
  refine outs_inv exec (P := fun log s => findService s.services n = registered log n)
      (init gov) rfl ?_ cs
  intro log s c s' r hp hx
  rw [registered_snoc]
  rcases (services_step hx).2 with ⟨m, x, hm, _, _, hs⟩ | ⟨hm, hs⟩
  · rw [hs, findService_append, hp]
    obtain ⟨snd, fu, ti, msg⟩ := c
    simp only at hm
    subst hm
    rfl
  · rw [hs, hp]
    have : registered [(c, r)] n = none := by
      obtain ⟨snd, fu, ti, msg⟩ := c
      cases msg with
      | registerService m sv => exact absurd rfl (hm m sv)
      | authorizeWorkers => rfl
      | unauthorizeWorkers => rfl
      | declareChainSupport => rfl
      | bondWorker => rfl
      | unbondWorker => rfl
      | claimStake => rfl
    rw [this]
    cases registered log n <;> rfl

/-! ### concrete data for the non-vacuity checks -/

/-- a service with minimum bond 10, denomination `axl`, one day of unbonding -/
def exSv : Service := ⟨10, "axl".toList, 1⟩

/-- governance 1 registers a service, authorises workers 5 and 6; 5 bonds 10 + 20, 6 bonds 4, both declare
chain `eth` -/
def exCalls : List Call := [
  ⟨1, [], 0, .registerService "svc".toList exSv⟩,
  ⟨1, [], 0, .authorizeWorkers [6, 5] "svc".toList⟩,
  ⟨6, [("axl".toList, 4)], 0, .bondWorker "svc".toList⟩,
  ⟨5, [("btc".toList, 3), ("axl".toList, 10)], 0, .bondWorker "svc".toList⟩,
  ⟨5, [("axl".toList, 20)], 1, .bondWorker "svc".toList⟩,
  ⟨6, [], 1, .declareChainSupport "svc".toList ["eth".toList]⟩,
  ⟨5, [], 1, .declareChainSupport "svc".toList ["btc".toList, "eth".toList]⟩]

/-- 5 unbonds at time 7, claims too early, and then in time -/
def exCalls2 : List Call := exCalls ++ [
  ⟨5, [], 7, .unbondWorker "svc".toList⟩,
  ⟨5, [], 6 + dayNanos, .claimStake "svc".toList⟩,
  ⟨5, [], 7 + dayNanos, .claimStake "svc".toList⟩]

/-! ### C32 -/

/-- C32 per worker: in every reachable state the stake recorded for a worker in a service, plus all
stake already paid out to it, is what it deposited. -/
theorem C32_worker_ledger (gov : Addr) (cs : List Call) (n : Str) (a : Addr) (sv : Service)
    (hsv : findService (stateAfter gov cs).services n = some sv) :
    stakeOf (stateAfter gov cs) n a + payouts (history gov cs) n a =
      deposits (history gov cs) n sv.denom a := by
  have key := outs_inv exec (P := fun log s =>
    (findService s.services n = none → stakeOf s n a = 0 ∧ payouts log n a = 0 ∧
      ∀ d, deposits log n d a = 0) ∧
    (∀ sv, findService s.services n = some sv →
      stakeOf s n a + payouts log n a = deposits log n sv.denom a)) (init gov)
    ⟨fun _ => ⟨rfl, rfl, fun _ => rfl⟩, fun sv h => by simp [init, findService] at h⟩ ?_ cs
  · exact key.2 sv hsv
  rintro log s c s' r ⟨h0, h1⟩ hx
  simp only [payouts_snoc, deposits_snoc]
  cases hf : findService s.services n with
  | none =>
    obtain ⟨e1, e2, e3⟩ := h0 hf
    obtain ⟨n1, n2, n3, _⟩ := no_service hx hf
    have hp : payoutTo n a (c, r) = 0 := by simp [payoutTo, n3]
    have hd : ∀ d, depositBy n d a (c, r) = 0 := by intro d; simp [depositBy, n1]
    have hst : stakeOf s' n a = stakeOf s n a := by
      rcases stake_step hx n a with ⟨_, _, h2, _⟩ | ⟨_, _, h2, _⟩ | ⟨_, _, _, h2, _⟩ | ⟨_, h2, _⟩
      · exact absurd h2 n1
      · exact absurd h2 n2
      · exact absurd h2 n3
      · exact h2
    rw [hst, hp, e1, e2]
    exact ⟨fun _ => ⟨rfl, rfl, fun d => by rw [e3, hd]⟩, fun sv _ => by rw [e3, hd]⟩
  | some sv =>
    have e := h1 sv hf
    have hf' := findService_step hx hf
    refine ⟨fun h => by rw [hf'] at h; simp at h, ?_⟩
    intro sv' hsv'
    rw [hf'] at hsv'
    simp only [Option.some.injEq] at hsv'
    subst hsv'
    rcases stake_step hx n a with ⟨sv', e1, e2, e3, e4, e5, _⟩ | ⟨sv', e1, e2, e3, e4, e5, _⟩ |
      ⟨sv', t, e1, e2, e3, e4, _, e5, _, e6⟩ | ⟨e1, e2, _⟩
    · rw [hf] at e3
      simp only [Option.some.injEq] at e3
      subst e3
      simp only [payoutTo, depositBy, e1, e2, and_self, if_true, reduceCtorEq, if_false, e5]
      omega
    · simp only [payoutTo, depositBy, e2, reduceCtorEq, false_and, if_false, e5]
      omega
    · simp only [payoutTo, depositBy, e2, reduceCtorEq, false_and, if_true, if_false, e5, e6,
        List.map_cons, List.map_nil, List.sum_cons, List.sum_nil]
      omega
    · have hd : depositBy n sv.denom a (c, r) = 0 := by
        unfold depositBy
        split
        · rename_i hh
          simp only at hh
          simp [ownCall, hh.1, hh.2] at e1
        · rfl
      have hp : payoutTo n a (c, r) = 0 := by
        unfold payoutTo
        split
        · rename_i hh
          simp only at hh
          obtain ⟨_, _, _, _, _, hs⟩ := claim_sends hx hh
          by_cases hca : c.sender = a
          · simp [ownCall, hh, hca] at e1
          · simp [hs, hca]
        · rfl
      rw [e2, hd, hp]
      omega

/-- C32 per service: total stake recorded + total paid out = total deposited. -/
theorem C32_service_ledger (gov : Addr) (cs : List Call) (n : Str) (sv : Service)
    (hsv : findService (stateAfter gov cs).services n = some sv) :
    totalStake (stateAfter gov cs) n + totalPayouts (history gov cs) n =
      totalDeposits (history gov cs) n sv.denom := by
  have key := outs_inv exec (P := fun log s => Inv s ∧
    (findService s.services n = none → totalPayouts log n = 0 ∧ ∀ d, totalDeposits log n d = 0) ∧
    (∀ sv, findService s.services n = some sv →
      totalStake s n + totalPayouts log n = totalDeposits log n sv.denom)) (init gov)
    ⟨inv_init gov, fun _ => ⟨rfl, fun _ => rfl⟩, fun sv h => by simp [init, findService] at h⟩ ?_ cs
  · exact key.2.2 sv hsv
  rintro log s c s' r ⟨hi, h0, h1⟩ hx
  refine ⟨inv_step hi hx, ?_⟩
  simp only [totalPayouts, totalDeposits, List.map_append, List.map_cons, List.map_nil,
    List.sum_append, List.sum_cons, List.sum_nil, Nat.add_zero] at h0 h1 ⊢
  cases hf : findService s.services n with
  | none =>
    obtain ⟨e2, e3⟩ := h0 hf
    obtain ⟨n1, n2, n3, n4, n5, n6⟩ := no_service hx hf
    simp only [n1, n3, if_false, e2, e3]
    refine ⟨fun _ => by simp, fun sv _ => ?_⟩
    have hw : workersOf s' n = [] := by
      have hw0 := hi.empty n hf
      rcases exec_ok hx with ⟨m, sv, hm, hg, hy⟩ | ⟨m, ws, x, _, hm, hy⟩ | ⟨m, chains, hm, hy⟩ |
        ⟨m, hm, hy⟩ | ⟨m, hm, hy⟩ | ⟨m, hm, hy⟩
      · obtain ⟨_, _, rfl⟩ := register_ok hy; exact hw0
      · obtain ⟨_, hsv, _, rfl⟩ := updateAuth_ok hy
        have hne : n ≠ m := by intro h; rw [← h, hf] at hsv; simp at hsv
        rw [foldAuth_workersOf_ne hne]; exact hw0
      · obtain ⟨_, _, _, _, _, rfl⟩ := declare_ok hy; exact hw0
      · obtain ⟨_, hsv, _, rfl, _⟩ := bond_ok hy
        have hne : n ≠ m := by intro h; rw [← h, hf] at hsv; simp at hsv
        rw [workersOf_save_ne _ hne]; exact hw0
      · obtain ⟨_, _, hsv, _, _, rfl, _⟩ := unbond_ok hy
        have hne : n ≠ m := by intro h; rw [← h, hf] at hsv; simp at hsv
        rw [workersOf_save_ne _ hne]; exact hw0
      · obtain ⟨_, _, _, hsv, _, _, _, rfl, _⟩ := claim_ok hy
        have hne : n ≠ m := by intro h; rw [← h, hf] at hsv; simp at hsv
        rw [workersOf_save_ne _ hne]; exact hw0
    simp [totalStake, hw]
  | some sv =>
    have e := h1 sv hf
    have hf' := findService_step hx hf
    refine ⟨fun h => by rw [hf'] at h; simp at h, ?_⟩
    intro sv' hsv'
    rw [hf'] at hsv'
    simp only [Option.some.injEq] at hsv'
    subst hsv'
    rcases exec_ok hx with ⟨m, sv1, hm, hg, hy⟩ | ⟨m, ws, x, _, hm, hy⟩ | ⟨m, chains, hm, hy⟩ |
      ⟨m, hm, hy⟩ | ⟨m, hm, hy⟩ | ⟨m, hm, hy⟩
    · obtain ⟨_, _, rfl⟩ := register_ok hy
      simp only [hm, reduceCtorEq, if_false, Nat.add_zero]
      exact e
    · obtain ⟨_, hsv, _, rfl⟩ := updateAuth_ok hy
      rw [foldAuth_total hi.sorted]
      rcases hm with ⟨hm, _⟩ | ⟨hm, _⟩ <;> (simp only [hm, reduceCtorEq, if_false, Nat.add_zero]; exact e)
    · obtain ⟨_, _, _, _, _, rfl⟩ := declare_ok hy
      simp only [hm, reduceCtorEq, if_false, Nat.add_zero]
      exact e
    · obtain ⟨sv1, hsv, _, rfl, _⟩ := bond_ok hy
      simp only [hm, Msg.bondWorker.injEq, reduceCtorEq, if_false, Nat.add_zero]
      by_cases hne : n = m
      · subst hne
        rw [hf] at hsv
        simp only [Option.some.injEq] at hsv
        subst hsv
        have := totalStake_save_self (hi.sorted n) c.sender { base s n c.sender with
          bonding := .bonded (stakeOf s n c.sender + firstOf sv.denom c.funds) }
        simp only [BondingState.amount] at this
        rw [if_pos rfl]
        omega
      · rw [totalStake_save_ne _ hne, if_neg (Ne.symm hne)]
        exact e
    · obtain ⟨sv1, w, hsv, hw, _, rfl, _⟩ := unbond_ok hy
      simp only [hm, reduceCtorEq, if_false, Nat.add_zero]
      by_cases hne : n = m
      · subst hne
        have := totalStake_save_self (hi.sorted n) c.sender { w with
          bonding := .unbonding (stakeOf s n c.sender) c.time }
        simp only [BondingState.amount] at this
        omega
      · rw [totalStake_save_ne _ hne]
        exact e
    · obtain ⟨sv1, w, t, hsv, hw, hb, ht, rfl, rfl⟩ := claim_ok hy
      simp only [hm, Msg.claimStake.injEq, reduceCtorEq, if_false, Nat.add_zero]
      by_cases hne : n = m
      · subst hne
        have := totalStake_save_self (hi.sorted n) c.sender { w with bonding := .unbonded }
        simp only [BondingState.amount] at this
        simp only [if_true, List.map_cons, List.map_nil, List.sum_cons, List.sum_nil]
        omega
      · rw [totalStake_save_ne _ hne, if_neg (Ne.symm hne)]
        exact e

/-- sums over services after changing one of them -/
theorem sum_services {l : List (Str × Service)} (hnd : (l.map Prod.fst).Nodup) {n : Str} {sv : Service}
    (hf : findService l n = some sv) (d : Str) (f g : Str → Nat) (hfg : ∀ m, m ≠ n → g m = f m) :
    (l.map (fun e => if e.2.denom = d then g e.1 else 0)).sum + (if sv.denom = d then f n else 0) =
    (l.map (fun e => if e.2.denom = d then f e.1 else 0)).sum + (if sv.denom = d then g n else 0) := by
  induction l with
  | nil => simp [findService] at hf
  | cons e t ih =>
    obtain ⟨m, x⟩ := e
    simp only [List.map_cons, List.nodup_cons] at hnd
    simp only [findService] at hf
    simp only [List.map_cons, List.sum_cons]
    by_cases hm : m = n
    · subst hm
      simp only [if_true, Option.some.injEq] at hf
      subst hf
      have : t.map (fun e => if e.2.denom = d then g e.1 else 0) =
          t.map (fun e => if e.2.denom = d then f e.1 else 0) := by
        apply List.map_congr_left
        intro y hy
        rw [hfg y.1]
        rintro rfl
        exact hnd.1 (List.mem_map.mpr ⟨y, hy, rfl⟩)
      rw [this]
      omega
    · rw [if_neg hm] at hf
      have := ih hnd.2 hf
      rw [hfg m hm]
      omega

theorem allOf_nil (d : Str) : allOf d [] = 0 := rfl

theorem allOf_single (d : Str) (p : Coin) : allOf d [p] = if p.1 = d then p.2 else 0 := by
  simp [allOf]

/-- C32 solvency: in every reachable state and for every denomination, what the contract received minus
what it sent is enough to pay all stake recorded in that denomination over all services together. -/
theorem C32_solvent (gov : Addr) (cs : List Call) (d : Str) :
    owed (stateAfter gov cs) d + sent (history gov cs) d ≤ received (history gov cs) d := by
  have key := outs_inv exec (P := fun log s => Inv s ∧ owed s d + sent log d ≤ received log d)
    (init gov) ⟨inv_init gov, by simp [owed, init, sent, received]⟩ ?_ cs
  · exact key.2
  rintro log s c s' r ⟨hi, h1⟩ hx
  refine ⟨inv_step hi hx, ?_⟩
  simp only [sent, received, List.map_append, List.map_cons, List.map_nil,
    List.sum_append, List.sum_cons, List.sum_nil, Nat.add_zero] at h1 ⊢
  rcases exec_ok hx with ⟨m, sv1, hm, hg, hy⟩ | ⟨m, ws, x, _, hm, hy⟩ | ⟨m, chains, hm, hy⟩ |
      ⟨m, hm, hy⟩ | ⟨m, hm, hy⟩ | ⟨m, hm, hy⟩
  · obtain ⟨hn, rfl, rfl⟩ := register_ok hy
    have : totalStake s m = 0 := by simp [totalStake, hi.empty m hn]
    have ho : owed { s with services := s.services ++ [(m, sv1)] } d = owed s d := by
      simp only [owed, List.map_append, List.map_cons, List.map_nil, List.sum_append, List.sum_cons,
        List.sum_nil]
      have : totalStake { s with services := s.services ++ [(m, sv1)] } m = 0 := this
      rw [this]
      simp only [ite_self, Nat.add_zero]
      rfl
    rw [ho]
    simp only [allOf_nil, List.map_nil]
    omega
  · obtain ⟨_, hsv, rfl, rfl⟩ := updateAuth_ok hy
    have ho : owed (ws.foldl (setAuth m x) s) d = owed s d := by
      unfold owed
      rw [(foldAuth m x ws s).1]
      simp only [foldAuth_total hi.sorted]
    rw [ho]
    simp only [allOf_nil, List.map_nil]
    omega
  · obtain ⟨_, _, _, _, rfl, rfl⟩ := declare_ok hy
    have ho : owed { s with perChain := chains.foldl (declareOne m c.sender) s.perChain } d =
      owed s d := rfl
    rw [ho]
    simp only [allOf_nil, List.map_nil]
    omega
  · obtain ⟨sv1, hsv, rfl, rfl, _⟩ := bond_ok hy
    have hsum := sum_services hi.names hsv d (totalStake s) _
      (fun m' hne => totalStake_save_ne s hne c.sender { base s m c.sender with
          bonding := .bonded (stakeOf s m c.sender + firstOf sv1.denom c.funds) })
    have htot := totalStake_save_self (hi.sorted m) c.sender { base s m c.sender with
          bonding := .bonded (stakeOf s m c.sender + firstOf sv1.denom c.funds) }
    simp only [BondingState.amount] at htot
    have hle := firstOf_le_allOf d c.funds
    simp only [owed, services_save] at h1 hsum ⊢
    by_cases hd : sv1.denom = d
    · subst hd
      simp only [if_true] at hsum
      simp only [List.map_nil, allOf_nil] at hle ⊢
      omega
    · simp only [if_neg hd, Nat.add_zero] at hsum
      rw [hsum]
      simp only [allOf_nil, List.map_nil]
      omega
  · obtain ⟨sv1, w, hsv, hw, rfl, rfl, _⟩ := unbond_ok hy
    have hsum := sum_services hi.names hsv d (totalStake s) _
      (fun m' hne => totalStake_save_ne s hne c.sender { w with
          bonding := .unbonding (stakeOf s m c.sender) c.time })
    have htot := totalStake_save_self (hi.sorted m) c.sender { w with
          bonding := .unbonding (stakeOf s m c.sender) c.time }
    simp only [BondingState.amount] at htot
    simp only [owed, services_save] at h1 hsum ⊢
    simp only [allOf_nil, List.map_nil]
    split at hsum <;> omega
  · obtain ⟨sv1, w, t, hsv, hw, hb, ht, rfl, rfl⟩ := claim_ok hy
    have hsum := sum_services hi.names hsv d (totalStake s) _
      (fun m' hne => totalStake_save_ne s hne c.sender { w with bonding := .unbonded })
    have htot := totalStake_save_self (hi.sorted m) c.sender { w with bonding := .unbonded }
    simp only [BondingState.amount] at htot
    simp only [owed, services_save] at h1 hsum ⊢
    simp only [allOf_single, List.map_cons, List.map_nil]
    split at hsum
    · rename_i hd
      rw [if_pos hd]
      omega
    · rename_i hd
      rw [if_neg hd]
      omega

example : stakeOf (stateAfter 1 exCalls) "svc".toList 5 = 30 ∧
    totalStake (stateAfter 1 exCalls) "svc".toList = 34 ∧
    owed (stateAfter 1 exCalls) "axl".toList = 34 ∧
    received (history 1 exCalls) "axl".toList = 34 ∧ received (history 1 exCalls) "btc".toList = 3 ∧
    findService (stateAfter 1 exCalls).services "svc".toList = some exSv := by decide

/-! ### C33 -/

/-- the bonding state of every worker follows from its own last call and the ledger -/
theorem phase_reachable (gov : Addr) (cs : List Call) (n : Str) (a : Addr) :
    bondingOf (stateAfter gov cs) n a =
      phase (lastOwn (history gov cs) n a) (stakeOf (stateAfter gov cs) n a) := by
  refine outs_inv exec (P := fun log s => bondingOf s n a = phase (lastOwn log n a) (stakeOf s n a))
    (init gov) rfl ?_ cs
  intro log s c s' r hp hx
  rw [lastOwn_snoc]
  rcases stake_step hx n a with ⟨sv', e1, e2, e3, e4, e5, e6, _⟩ | ⟨sv', e1, e2, e3, e4, e5, e6, _⟩ |
      ⟨sv', t, e1, e2, e3, e4, _, e5, e6, _⟩ | ⟨e1, e2, e3⟩
  · rw [if_pos (by simp [ownCall, e1, e2]), e6, e5]; simp [phase, e2]
  · rw [if_pos (by simp [ownCall, e1, e2]), e6, e5]; simp [phase, e2]
  · rw [if_pos (by simp [ownCall, e1, e2]), e6, e5]; simp [phase, e2]
  · rw [e1, e2, e3, hp]; simp

/-- C33: whenever the contract sends coins, in any history: the call is `ClaimStake`; the single
transfer goes to the caller, in the denomination of the service; its amount is everything the caller
deposited in that service and was not paid yet; and the caller's last own call (bond, unbond, claim) on
that service before was `UnbondWorker`, at least the unbonding period earlier. -/
theorem C33_release (gov : Addr) (cs : List Call) {l₁ l₂ : List (Call × Resp)} {c : Call} {r : Resp}
    (h : history gov cs = l₁ ++ (c, r) :: l₂) (hs : r.sends ≠ []) :
    ∃ n sv u, c.msg = .claimStake n ∧ registered l₁ n = some sv ∧
      lastOwn l₁ n c.sender = some u ∧ u.msg = .unbondWorker n ∧
      u.time + sv.unbondingDays * dayNanos ≤ c.time ∧
      r.sends = [(c.sender, (sv.denom,
        deposits l₁ n sv.denom c.sender - payouts l₁ n c.sender))] := by
  obtain ⟨cs₁, cs₂, s', h1, h2, h3, h4, _⟩ := outs_split exec h
  have hreg : ∀ n, registered l₁ n = findService (stateAfter gov cs₁).services n := by
    intro n
    rw [services_registered, ← h2]
  by_cases hm : ∃ n, c.msg = .claimStake n
  · obtain ⟨n, hm⟩ := hm
    obtain ⟨sv, t, e1, e2, e3, e4⟩ := claim_sends h3 hm
    have hph := phase_reachable gov cs₁ n c.sender
    have hled := C32_worker_ledger gov cs₁ n c.sender sv e1
    change bondingOf (stateAfter gov cs₁) n c.sender = _ at e2
    rw [e2] at hph
    unfold history at hph hled
    rw [h2] at hph hled
    refine ⟨n, sv, ?_⟩
    unfold phase at hph
    split at hph
    · simp at hph
    rename_i u hu
    split at hph
    · simp at hph
    · rename_i m hum
      simp only [BondingState.unbonding.injEq] at hph
      have hmn : m = n := by
        have : u ∈ (l₁.filter (ownCall n c.sender)).map Prod.fst := by
          unfold lastOwn at hu
          rw [Option.map_eq_some_iff] at hu
          obtain ⟨e, he1, rfl⟩ := hu
          exact List.mem_map.mpr ⟨e, List.mem_of_getLast? he1, rfl⟩
        obtain ⟨e, he, rfl⟩ := List.mem_map.mp this
        have := (List.mem_filter.mp he).2
        simp [ownCall, hum] at this
        exact this.2
      subst hmn
      refine ⟨u, hm, by rw [hreg]; exact e1, hu, hum, ?_, ?_⟩
      · rw [← hph.2]; exact e3
      · rw [e4]
        have : stakeOf (runCalls exec (init gov) cs₁) m c.sender =
            deposits l₁ m sv.denom c.sender - payouts l₁ m c.sender := by
          change stakeOf (stateAfter gov cs₁) m c.sender = _
          omega
        rw [this]
    · simp at hph
  · exact absurd (other_sends h3 (fun n hn => hm ⟨n, hn⟩)) hs

theorem BondingState.claimStake_ok (k t time days : Nat) (ht : t + days * dayNanos ≤ time)
    (hmax : time ≤ u64Max) :
    (BondingState.unbonding k t).claimStake time days = .ok (.unbonded, k) := by
  unfold BondingState.claimStake
  generalize dayNanos = d at *
  generalize u64Max = m at *
  simp only
  rw [if_neg (by omega), if_pos ht]

/-- C33, the other direction: a worker whose last own call was `UnbondWorker` gets everything it
deposited and was not paid yet when it claims after the period (whatever happened in between). -/
theorem C33_claimable (gov : Addr) (cs : List Call) (c : Call) (n : Str) (sv : Service) (u : Call)
    (hsv : registered (history gov cs) n = some sv) (hm : c.msg = .claimStake n)
    (hl : lastOwn (history gov cs) n c.sender = some u) (hu : u.msg = .unbondWorker n)
    (ht : u.time + sv.unbondingDays * dayNanos ≤ c.time) (hmax : c.time ≤ u64Max) :
    ∃ s', exec (stateAfter gov cs) c = .ok (s', { sends := [(c.sender, (sv.denom,
      deposits (history gov cs) n sv.denom c.sender - payouts (history gov cs) n c.sender))] }) := by
  have hph := phase_reachable gov cs n c.sender
  rw [← services_registered] at hsv
  have hled := C32_worker_ledger gov cs n c.sender sv hsv
  rw [hl] at hph
  simp only [phase, hu] at hph
  have hst : deposits (history gov cs) n sv.denom c.sender - payouts (history gov cs) n c.sender =
    stakeOf (stateAfter gov cs) n c.sender := by omega
  rw [hst]
  cases hw : findWorker (stateAfter gov cs) n c.sender with
  | none => simp [bondingOf, hw] at hph
  | some w =>
    simp only [bondingOf, hw] at hph
    have hcl := BondingState.claimStake_ok (stakeOf (stateAfter gov cs) n c.sender) u.time c.time
      sv.unbondingDays ht hmax
    simp only [exec, hm, claimStake, hsv, hw, hph, hcl]
    exact ⟨_, rfl⟩

/-- C33: a claim is not paid twice: if the last own call of a worker on a service was a claim (or there
was none, or a bond), claiming fails and pays nothing. -/
theorem C33_not_repeated (gov : Addr) (cs : List Call) (c : Call) (n : Str)
    (hm : c.msg = .claimStake n)
    (hl : ∀ u, lastOwn (history gov cs) n c.sender = some u → u.msg ≠ .unbondWorker n) :
    ∃ e, exec (stateAfter gov cs) c = .error e := by
  cases hx : exec (stateAfter gov cs) c with
  | error e => exact ⟨e, rfl⟩
  | ok x =>
    exfalso
    obtain ⟨s', r⟩ := x
    obtain ⟨sv, t, e1, e2, e3, e4⟩ := claim_sends hx hm
    have hh : history gov (cs ++ [c]) = history gov cs ++ (c, r) :: [] := by
      rw [history, outs_append, outs_cons_ok exec hx]
      rfl
    obtain ⟨n', sv', u, h1, _, h3, h4, _⟩ := C33_release gov (cs ++ [c]) hh (by rw [e4]; simp)
    rw [hm] at h1
    simp only [Msg.claimStake.injEq] at h1
    subst h1
    exact hl u h3 h4

example : ((history 1 exCalls2).map (fun e => e.2.sends)).filter (· ≠ []) =
    [[(5, ("axl".toList, 30))]] ∧ stakeOf (stateAfter 1 exCalls2) "svc".toList 5 = 0 ∧
    (∃ e, exec (stateAfter 1 exCalls2) ⟨5, [], 9 + dayNanos, .claimStake "svc".toList⟩ = .error e) := by
  refine ⟨by decide, by decide, .invalidBondingState, by rfl⟩

/-! ### C34 -/

theorem declared_reachable (gov : Addr) (cs : List Call) (n : Str) (ch : ChainName) (a : Addr) :
    a ∈ declared (stateAfter gov cs) n ch ↔ declaredIn (history gov cs) n ch a := by
  have key := outs_inv exec (P := fun log s => Inv s ∧ (a ∈ declared s n ch ↔ declaredIn log n ch a))
    (init gov) ⟨inv_init gov, by simp [declared, init, declaredIn]⟩ ?_ cs
  · exact key.2
  rintro log s c s' r ⟨hi, hp⟩ hx
  refine ⟨inv_step hi hx, ?_⟩
  have hsn : declaredIn (log ++ [(c, r)]) n ch a ↔ declaredIn log n ch a ∨
      (c.sender = a ∧ ∃ chains, c.msg = .declareChainSupport n chains ∧ ch ∈ chains) := by
    unfold declaredIn
    constructor
    · rintro ⟨e, he, h⟩
      rcases List.mem_append.mp he with he | he
      · exact Or.inl ⟨e, he, h⟩
      · simp only [List.mem_singleton] at he; subst he; exact Or.inr h
    · rintro (⟨e, he, h⟩ | h)
      · exact ⟨e, List.mem_append_left _ he, h⟩
      · exact ⟨(c, r), by simp, h⟩
  rw [hsn, ← hp]
  have same : s'.perChain = s.perChain → (∀ n chains, c.msg ≠ .declareChainSupport n chains) →
      (a ∈ declared s' n ch ↔ a ∈ declared s n ch ∨
        (c.sender = a ∧ ∃ chains, c.msg = .declareChainSupport n chains ∧ ch ∈ chains)) := by
    intro h1 h2
    have : ¬ (c.sender = a ∧ ∃ chains, c.msg = .declareChainSupport n chains ∧ ch ∈ chains) := by
      rintro ⟨_, chains, h, _⟩; exact h2 _ _ h
    unfold declared
    rw [h1]
    simp [this]
  rcases exec_ok hx with ⟨m, sv, hm, _, hy⟩ | ⟨m, ws, x, _, hm, hy⟩ | ⟨m, chains, hm, hy⟩ |
    ⟨m, hm, hy⟩ | ⟨m, hm, hy⟩ | ⟨m, hm, hy⟩
  · obtain ⟨_, _, rfl⟩ := register_ok hy
    exact same rfl (by simp [hm])
  · obtain ⟨sv, hsv, _, rfl⟩ := updateAuth_ok hy
    refine same (foldAuth m x ws s).2.2.1 ?_
    rcases hm with ⟨hm, _⟩ | ⟨hm, _⟩ <;> simp [hm]
  · obtain ⟨sv, w, _, _, _, rfl⟩ := declare_ok hy
    rw [mem_declared, mem_declared]
    simp only
    rw [(foldDeclare m c.sender chains s.perChain (fun k m hk => hi.chainSorted k.1 k.2 m hk)).2]
    simp only [hm, Msg.declareChainSupport.injEq]
    constructor
    · rintro (h | ⟨rfl, h1, rfl⟩)
      · exact Or.inl h
      · exact Or.inr ⟨rfl, chains, ⟨rfl, rfl⟩, h1⟩
    · rintro (h | ⟨rfl, chains', ⟨rfl, rfl⟩, h1⟩)
      · exact Or.inl h
      · exact Or.inr ⟨rfl, h1, rfl⟩
  · obtain ⟨sv, _, _, rfl, _⟩ := bond_ok hy
    exact same rfl (by simp [hm])
  · obtain ⟨sv, w, _, _, _, rfl, _⟩ := unbond_ok hy
    exact same rfl (by simp [hm])
  · obtain ⟨sv, w, t, _, _, _, _, rfl, _⟩ := claim_ok hy
    exact same rfl (by simp [hm])

/-- C34: for a registered service the query succeeds; it returns exactly the workers that declared
support for the chain, are bonded with at least the minimum bond and are authorised; in strictly
ascending address order, hence each once; each becomes a participant of weight one. -/
theorem C34_active_workers (gov : Addr) (cs : List Call) (n : Str) (ch : ChainName) (sv : Service)
    (hsv : findService (stateAfter gov cs).services n = some sv) :
    ∃ ws, getActiveWorkers (stateAfter gov cs) n ch = .ok ws ∧
      (ws.map (·.address)).Pairwise (· < ·) ∧
      (∀ w, w ∈ ws ↔ findWorker (stateAfter gov cs) n w.address = some w ∧
        declaredIn (history gov cs) n ch w.address ∧
        (∃ k, w.bonding = .bonded k ∧ sv.minBond ≤ k) ∧ w.auth = .authorized) ∧
      (∀ w ∈ ws, w.toParticipant = some (w.address, 1)) := by
  have hdec := declared_reachable gov cs n ch
  have hi := inv_reachable gov cs
  revert hdec hi hsv
  generalize stateAfter gov cs = s
  intro hsv hdec hi
  have hact : ∀ w, isActive sv w = true ↔
      (∃ k, w.bonding = .bonded k ∧ sv.minBond ≤ k) ∧ w.auth = .authorized := by
    intro w
    unfold isActive
    cases hb : w.bonding <;> simp
  have hdsorted : (declared s n ch).Pairwise (· < ·) := by
    unfold declared
    cases hp : s.perChain (n, ch) with
    | none => simp
    | some m => exact OMap.keys_sorted (hi.chainSorted n ch m hp)
  obtain ⟨ws, hws⟩ : ∃ ws, mapE (loadWorker s n) (declared s n ch) = .ok ws := by
    apply mapE_ok_of_forall
    intro a ha
    obtain ⟨w, hw⟩ := hi.chainWorker n ch a ha
    exact ⟨w, by simp [loadWorker, hw]⟩
  have haddr : ws.map (·.address) = declared s n ch := by
    clear hdsorted hdec
    generalize declared s n ch = l at hws
    induction l generalizing ws with
    | nil => simp only [mapE, Except.ok.injEq] at hws; subst hws; rfl
    | cons a t ih =>
      obtain ⟨w, t', h1, h2, rfl⟩ := mapE_cons_ok.mp hws
      unfold loadWorker at h1
      split at h1
      · simp at h1
      rename_i w' hw'
      simp only [Except.ok.injEq] at h1
      subst h1
      simp only [List.map_cons, ih t' h2, (hi.own n a w' hw').1]
  refine ⟨ws.filter (isActive sv), by simp only [getActiveWorkers, hsv, hws], ?_, ?_, ?_⟩
  · have : (ws.map (·.address)).Pairwise (· < ·) := by rw [haddr]; exact hdsorted
    exact List.Pairwise.sublist (List.Sublist.map _ List.filter_sublist) this
  · intro w
    rw [List.mem_filter, hact]
    have hmem : w ∈ ws ↔ findWorker s n w.address = some w ∧
        declaredIn (history gov cs) n ch w.address := by
      rw [← hdec]
      constructor
      · intro hw
        obtain ⟨a, ha, hl⟩ := mapE_mem_right hws hw
        unfold loadWorker at hl
        split at hl
        · simp at hl
        rename_i w' hw'
        simp only [Except.ok.injEq] at hl
        subst hl
        have := (hi.own n a w' hw').1
        rw [this]
        exact ⟨hw', ha⟩
      · rintro ⟨hw, ha⟩
        obtain ⟨w', hw', hl⟩ := mapE_mem hws ha
        unfold loadWorker at hl
        rw [hw] at hl
        simp only [Except.ok.injEq] at hl
        rw [hl]; exact hw'
    rw [hmem]
    constructor
    · rintro ⟨⟨h1, h2⟩, h3, h4⟩; exact ⟨h1, h2, h3, h4⟩
    · rintro ⟨h1, h2, h3, h4⟩; exact ⟨⟨h1, h2⟩, h3, h4⟩
  · intro w hw
    have := (hact w).mp (List.mem_filter.mp hw).2
    obtain ⟨⟨k, hk, _⟩, _⟩ := this
    simp [Worker.toParticipant, hk]

/-- C34: for an unknown service the query fails. -/
theorem C34_unknown_service (gov : Addr) (cs : List Call) (n : Str) (ch : ChainName)
    (hsv : findService (stateAfter gov cs).services n = none) :
    getActiveWorkers (stateAfter gov cs) n ch = .error .serviceNotFound := by
  simp [getActiveWorkers, hsv]

example : getActiveWorkers (stateAfter 1 exCalls) "svc".toList "eth".toList =
    .ok [⟨5, .bonded 30, .authorized, "svc".toList⟩] ∧
    declared (stateAfter 1 exCalls) "svc".toList "eth".toList = [5, 6] := ⟨rfl, rfl⟩

/-! ### C35 -/

theorem authAfter_snoc (log : List (Call × Resp)) (e : Call × Resp) (n : Str) (a : Addr)
    (cur : AuthState) : authAfter (log ++ [e]) n a cur =
      match authBy n a e with
      | some x => x
      | none => authAfter log n a cur := by
  induction log generalizing cur with
  | nil => simp only [List.nil_append, authAfter]; split <;> rename_i h <;> simp [h]
  | cons x t ih =>
    simp only [List.cons_append, authAfter]
    split <;> exact ih _

/-- C35: the authorisation of every worker in every service is what the last governance call naming it
said, and unauthorised if there was none; nothing else influences it. -/
theorem C35_authorisation (gov : Addr) (cs : List Call) (n : Str) (a : Addr) (w : Worker)
    (hw : findWorker (stateAfter gov cs) n a = some w) :
    w.auth = authAfter (history gov cs) n a .notAuthorized := by
  have key := outs_inv exec (P := fun log s =>
    (base s n a).auth = authAfter log n a .notAuthorized) (init gov) rfl ?_ cs
  · simp only [base] at key
    change (match findWorker (stateAfter gov cs) n a with
      | some w => w
      | none => ⟨a, .unbonded, .notAuthorized, n⟩ : Worker).auth = _ at key
    rw [hw] at key
    exact key
  intro log s c s' r hp hx
  rw [authAfter_snoc]
  rcases exec_ok hx with ⟨m, sv, hm, _, hy⟩ | ⟨m, ws, x, _, hm, hy⟩ | ⟨m, chains, hm, hy⟩ |
    ⟨m, hm, hy⟩ | ⟨m, hm, hy⟩ | ⟨m, hm, hy⟩
  · obtain ⟨_, _, rfl⟩ := register_ok hy
    simp only [authBy, hm]; exact hp
  · obtain ⟨sv, hsv, _, rfl⟩ := updateAuth_ok hy
    have hf := (foldAuth m x ws s).2.2.2 n a
    have hby : authBy n a (c, r) = if m = n ∧ a ∈ ws then some x else none := by
      rcases hm with ⟨hm, rfl⟩ | ⟨hm, rfl⟩ <;> simp [authBy, hm]
    rw [hby]
    unfold base
    rw [hf]
    by_cases hh : m = n ∧ a ∈ ws
    · rw [if_pos ⟨hh.1.symm, hh.2⟩, if_pos hh]
    · rw [if_neg (fun h => hh ⟨h.1.symm, h.2⟩), if_neg hh]
      exact hp
  · obtain ⟨sv, w, _, _, _, rfl⟩ := declare_ok hy
    simp only [authBy, hm]; exact hp
  · obtain ⟨sv, _, _, rfl, _⟩ := bond_ok hy
    simp only [authBy, hm]
    rw [← hp]
    unfold base
    rw [findWorker_save]
    by_cases hh : n = m ∧ a = c.sender
    · obtain ⟨rfl, rfl⟩ := hh; simp
    · rw [if_neg hh]
  · obtain ⟨sv, w, _, hw', _, rfl, _⟩ := unbond_ok hy
    simp only [authBy, hm]
    rw [← hp]
    unfold base
    rw [findWorker_save]
    by_cases hh : n = m ∧ a = c.sender
    · obtain ⟨rfl, rfl⟩ := hh; simp [hw']
    · rw [if_neg hh]
  · obtain ⟨sv, w, t, _, hw', _, _, rfl, _⟩ := claim_ok hy
    simp only [authBy, hm]
    rw [← hp]
    unfold base
    rw [findWorker_save]
    by_cases hh : n = m ∧ a = c.sender
    · obtain ⟨rfl, rfl⟩ := hh; simp [hw']
    · rw [if_neg hh]

/-- C35: every successful call that registers a service or sets authorisations comes from governance;
and the governance address never changes. -/
theorem C35_governance_only (gov : Addr) (cs : List Call) {c : Call} {r : Resp}
    (h : (c, r) ∈ history gov cs)
    (hm : (∃ n sv, c.msg = .registerService n sv) ∨ (∃ ws n, c.msg = .authorizeWorkers ws n) ∨
      (∃ ws n, c.msg = .unauthorizeWorkers ws n)) : c.sender = gov := by
  have hg : ∀ cs, (stateAfter gov cs).governance = gov := fun cs =>
    runCalls_inv exec (P := fun s => s.governance = gov)
      (fun _ _ _ _ hi hx => by rw [(services_step hx).1, hi]) _ rfl cs
  obtain ⟨cs₁, cs₂, s', _, hx⟩ := outs_mem exec h
  have hg := hg cs₁
  rw [← hg]
  rcases exec_ok hx with ⟨m, sv, _, hs, _⟩ | ⟨m, ws, x, hs, _⟩ | ⟨m, chains, hm', hy⟩ |
    ⟨m, hm', hy⟩ | ⟨m, hm', hy⟩ | ⟨m, hm', hy⟩
  · exact hs
  · exact hs
  all_goals
    simp only at hm'
    rw [hm'] at hm
    simp at hm

/-- C35: a service keeps the parameters of its first registration. -/
theorem C35_services (gov : Addr) (cs : List Call) (n : Str) :
    findService (stateAfter gov cs).services n = registered (history gov cs) n :=
  services_registered gov cs n

example : (findWorker (stateAfter 1 (exCalls ++ [⟨1, [], 3, .unauthorizeWorkers [5] "svc".toList⟩,
      ⟨5, [], 3, .authorizeWorkers [5] "svc".toList⟩, ⟨7, [], 3, .bondWorker "svc".toList⟩]))
      "svc".toList 5).map (·.auth) = some .notAuthorized ∧
    (findWorker (stateAfter 1 exCalls) "svc".toList 5).map (·.auth) = some .authorized := by decide

/-! ### C36 -/

/-- C36: the bonding state of a worker changes only through its own calls on that service, and only
along the legal transitions (a first `BondWorker` without coins leaves a record bonded with zero). -/
theorem C36_transitions (gov : Addr) (cs : List Call) (c : Call) {s' : State} {r : Resp}
    (hx : exec (stateAfter gov cs) c = .ok (s', r)) (n : Str) (a : Addr)
    (hne : bondingOf s' n a ≠ bondingOf (stateAfter gov cs) n a) :
    c.sender = a ∧ ∃ sv, findService (stateAfter gov cs).services n = some sv ∧
      (Transition c.time sv.unbondingDays (bondingOf (stateAfter gov cs) n a) (bondingOf s' n a) ∨
        findWorker (stateAfter gov cs) n a = none ∧ bondingOf s' n a = .bonded 0) := by
  have hi := inv_reachable gov cs
  revert hx hi hne
  generalize stateAfter gov cs = s
  intro hx hne hi
  have hba : (bondingOf s n a).amount = stakeOf s n a := by
    unfold bondingOf stakeOf; cases findWorker s n a <;> rfl
  rcases stake_step hx n a with ⟨sv, e1, e2, e3, e4, e5, e6, e7⟩ | ⟨sv, e1, e2, e3, e4, e5, e6, e7⟩ |
      ⟨sv, t, e1, e2, e3, e4, e5, e6, e7, e8⟩ | ⟨e1, e2, e3⟩
  · refine ⟨e1, sv, e3, ?_⟩
    by_cases hz : stakeOf s n a + firstOf sv.denom c.funds = 0
    · right
      refine ⟨?_, by rw [e6, hz]⟩
      by_contra hw
      exact e7 hw hz
    · left
      rw [e6, ← hba]
      exact Transition.bond _ _ (by rw [hba]; exact hz)
  · refine ⟨e1, sv, e3, Or.inl ?_⟩
    rcases e7 with e7 | e7
    · rw [e6, e7]; exact Transition.unbond _
    · exfalso
      unfold bondingOf at e7
      cases hw : findWorker s n a with
      | none => rw [hw] at e7; simp at e7
      | some w => rw [hw] at e7; exact hi.noReq n a w _ hw e7
  · refine ⟨e1, sv, e3, Or.inl ?_⟩
    rw [e7, e4]
    exact Transition.claim _ _ e5
  · exact absurd e3 hne

/-- C36: in every reachable state the bonding state is the one that follows from the worker's last own
call, with everything deposited and not yet paid out at stake. -/
theorem C36_state_from_history (gov : Addr) (cs : List Call) (n : Str) (a : Addr) (sv : Service)
    (hsv : registered (history gov cs) n = some sv) :
    bondingOf (stateAfter gov cs) n a = phase (lastOwn (history gov cs) n a)
      (deposits (history gov cs) n sv.denom a - payouts (history gov cs) n a) := by
  rw [← C35_services] at hsv
  have h1 := C32_worker_ledger gov cs n a sv hsv
  rw [phase_reachable, show stakeOf (stateAfter gov cs) n a =
    deposits (history gov cs) n sv.denom a - payouts (history gov cs) n a by omega]

/-- C36: unbonding succeeds exactly for a bonded worker (of a registered service), so it cannot be
repeated. -/
theorem C36_unbond_iff (gov : Addr) (cs : List Call) (c : Call) (n : Str)
    (hm : c.msg = .unbondWorker n) :
    (∃ s' r, exec (stateAfter gov cs) c = .ok (s', r)) ↔
      (∃ k, bondingOf (stateAfter gov cs) n c.sender = .bonded k) := by
  have hi := inv_reachable gov cs
  revert hi
  generalize stateAfter gov cs = s
  intro hi
  constructor
  · rintro ⟨s', r, hx⟩
    rcases stake_step hx n c.sender with ⟨sv, e1, e2, _⟩ | ⟨sv, e1, e2, e3, e4, e5, e6, e7⟩ |
      ⟨sv, t, e1, e2, _⟩ | ⟨e1, _⟩
    · rw [hm] at e2; simp at e2
    · rcases e7 with e7 | e7
      · exact ⟨_, e7⟩
      · exfalso
        unfold bondingOf at e7
        cases hw : findWorker s n c.sender with
        | none => rw [hw] at e7; simp at e7
        | some w => rw [hw] at e7; exact hi.noReq n _ w _ hw e7
    · rw [hm] at e2; simp at e2
    · simp [ownCall, hm] at e1
  · rintro ⟨k, hk⟩
    unfold bondingOf at hk
    cases hw : findWorker s n c.sender with
    | none => rw [hw] at hk; simp at hk
    | some w =>
      rw [hw] at hk
      simp only at hk
      cases hf : findService s.services n with
      | none =>
        have := hi.empty n hf
        simp [findWorker, this] at hw
      | some sv =>
        simp only [exec, hm, unbondWorker, hf, hw, hk, BondingState.unbond, if_true]
        exact ⟨_, _, rfl⟩

example : bondingOf (stateAfter 1 (exCalls2.take 8)) "svc".toList 5 = .unbonding 30 7 ∧
    bondingOf (stateAfter 1 (exCalls2.take 8 ++ [⟨5, [], 9, .bondWorker "svc".toList⟩]))
      "svc".toList 5 = .bonded 30 ∧
    bondingOf (stateAfter 1 exCalls2) "svc".toList 5 = .unbonded := by decide

/-! ### C37 -/

/-- C37 for the inner query function: given the service and the worker in this order it returns exactly
the stored record. -/
theorem C37_inner_query_partial (validate : Str → Option Addr) (s : State) (n worker : Str) (a : Addr)
    (hv : validate worker = some a) (w : Worker) :
    getWorker validate s n worker = .ok w ↔ findWorker s n a = some w := by
  simp only [getWorker, hv, loadWorker]
  cases findWorker s n a <;> simp

/-- C37 is false: the entry point answers `GetWorker { service_name, worker }` as if service and worker
were exchanged.  Here worker `w5` (address 5) is bonded in service `svc`, but asking for it fails, even
though `svc` also happens to be a valid address. -/
theorem C37_counterexample : ∃ (validate : Str → Option Addr) (gov : Addr) (cs : List Call)
    (n worker : Str) (a : Addr) (w : Worker), validate worker = some a ∧
      findWorker (stateAfter gov cs) n a = some w ∧
      queryGetWorker validate (stateAfter gov cs) n worker = .error .workerNotFound :=
  ⟨fun s => if s = "w5".toList then some 5 else if s = "svc".toList then some 9 else none, 1, exCalls,
    "svc".toList, "w5".toList, 5, ⟨5, .bonded 30, .authorized, "svc".toList⟩, by decide, rfl, rfl⟩

/-- C37: and it can answer with the record of a different worker in a different service. -/
theorem C37_wrong_record : ∃ (validate : Str → Option Addr) (gov : Addr) (cs : List Call)
    (n worker : Str) (a : Addr) (w : Worker), validate worker = some a ∧
      queryGetWorker validate (stateAfter gov cs) n worker = .ok w ∧ w.address ≠ a ∧ w.service ≠ n :=
  ⟨fun s => if s = "w5".toList then some 5 else if s = "svc".toList then some 9 else none, 1,
    [⟨1, [], 0, .registerService "w5".toList exSv⟩, ⟨9, [], 0, .bondWorker "w5".toList⟩],
    "svc".toList, "w5".toList, 5, ⟨9, .bonded 0, .notAuthorized, "w5".toList⟩, by decide, rfl,
    by decide, by decide⟩

end Amp.Registry
