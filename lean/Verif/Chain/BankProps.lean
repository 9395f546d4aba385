import Verif.Chain.BankInv
import Verif.Chain.Example

/-!
# C81: the contracts can pay

The chain with balances: no payment of a contract ever fails for want of coins, the stake recorded by a registry and
the pools of a rewards contract are covered by their balances, and a claim or a distribution brings the workers
exactly what they are due.
-/

namespace Amp.Chain

open Amp.Registry (Coin)

variable {P : Params} {setup : Setup}

/-! ### Spec -/

/-- the transactions of a history with balances -/
def Op.tx? : Op → Option Tx
  | .tx t => some t
  | _ => none

/-! ### Balances and the chain without balances -/

/-- C81: the chain with balances does what the chain without balances does with some of the transactions (those
that do not fail for want of coins): storage and log are the same.  So everything proved about all histories
of the chain without balances holds with balances. -/
theorem C81_refines (P : Params) (zero : Bool) (setup : Setup) (B : Bank) (ops : List Op) :
    ∃ txs, txs.Sublist (ops.filterMap Op.tx?) ∧ (bankedAfter P zero setup B ops).1 = worldAfter P setup txs ∧
      bankedLog P zero setup B ops = log P setup txs := by
  induction ops using List.reverseRecOn with
  | nil => exact ⟨[], List.Sublist.refl _, rfl, rfl⟩
  | append_singleton ops op ih =>
    obtain ⟨txs, h1, h2, h3⟩ := ih
    have hb := banked_inv P zero setup B ops
    have keep : ∀ s', (execOp P zero (bankedAfter P zero setup B ops) op = .ok (s', []) ∧
        s'.1 = (bankedAfter P zero setup B ops).1) ∨
        (∃ e, execOp P zero (bankedAfter P zero setup B ops) op = .error e) →
        ∃ txs, txs.Sublist ((ops ++ [op]).filterMap Op.tx?) ∧
          (bankedAfter P zero setup B (ops ++ [op])).1 = worldAfter P setup txs ∧
          bankedLog P zero setup B (ops ++ [op]) = log P setup txs := by
      intro s' h
      refine ⟨txs, ?_, ?_, ?_⟩
      · rw [List.filterMap_append]
        exact h1.trans (List.sublist_append_left _ _)
      · rw [← h2]
        unfold bankedAfter at h ⊢
        rw [runCalls_append, runCalls_cons, runCalls_nil]
        rcases h with ⟨h, h'⟩ | ⟨e, h⟩
        · rw [h]; exact h'
        · rw [h]; rfl
      · rw [← h3]
        unfold bankedLog bankedAfter at *
        rw [outs_append]
        rcases h with ⟨h, h'⟩ | ⟨e, h⟩
        · rw [outs_cons_ok _ h]; simp
        · rw [outs_cons_error _ h]; simp
    cases op with
    | tx t =>
      cases hx : execB P zero (bankedAfter P zero setup B ops).1 (bankedAfter P zero setup B ops).2 t with
      | error e => exact keep (bankedAfter P zero setup B ops) (.inr ⟨e, by simp [execOp, hx]⟩)
      | ok y =>
        obtain ⟨w', B', es⟩ := y
        have hop : execOp P zero (bankedAfter P zero setup B ops) (.tx t) = .ok ((w', B'), es) := by
          simp [execOp, hx]
        obtain ⟨_, hex⟩ := (execB_inv (zero := zero) (tx := t) hb).2 _ _ _ hx
        rw [h2] at hex
        refine ⟨txs ++ [t], ?_, ?_, ?_⟩
        · rw [List.filterMap_append]
          exact List.Sublist.append h1 (List.Sublist.refl _)
        · unfold worldAfter at hex ⊢
          unfold bankedAfter at hop ⊢
          rw [runCalls_append, runCalls_cons, runCalls_nil, hop, runCalls_append, runCalls_cons, runCalls_nil, hex]
          rfl
        · unfold worldAfter at hex
          unfold log at h3 ⊢
          unfold bankedAfter at hop
          unfold bankedLog at h3 ⊢
          rw [outs_append, outs_cons_ok _ hop, outs_append, outs_cons_ok _ hex, List.flatMap_append,
            List.flatMap_append, h3]
          rfl
    | transfer src dst c =>
      cases hx : execOp P zero (bankedAfter P zero setup B ops) (.transfer src dst c) with
      | error e => exact keep (bankedAfter P zero setup B ops) (.inr ⟨e, hx⟩)
      | ok y =>
        have hx' := hx
        unfold execOp at hx'
        simp only at hx'
        split at hx'
        · simp at hx'
        · split at hx'
          · simp at hx'
          · simp only [Except.ok.injEq] at hx'
            refine keep y.1 (.inl ⟨?_, ?_⟩)
            · rw [hx, ← hx']
            · rw [← hx']
    | mint dst c => exact keep _ (.inl ⟨rfl, rfl⟩)
    | burn src c =>
      cases hx : execOp P zero (bankedAfter P zero setup B ops) (.burn src c) with
      | error e => exact keep (bankedAfter P zero setup B ops) (.inr ⟨e, hx⟩)
      | ok y =>
        have hx' := hx
        unfold execOp at hx'
        simp only at hx'
        split at hx'
        · simp at hx'
        · split at hx'
          · simp at hx'
          · simp only [Except.ok.injEq] at hx'
            refine keep y.1 (.inl ⟨?_, ?_⟩)
            · rw [hx, ← hx']
            · rw [← hx']

/-! ### Payments -/

/-- C81: in any history, from any balances, with any other transfers, no transaction fails because a contract lacks
the coins it owes.  A payment fails only if it is a payment of nothing, in a claim of stake. -/
theorem C81_pays (P : Params) (zero : Bool) (setup : Setup) (B : Bank) (ops : List Op) (tx : Tx) (e : MoveErr)
    (h : execB P zero (bankedAfter P zero setup B ops).1 (bankedAfter P zero setup B ops).2 tx =
      .error (.payment e)) :
    e = .zeroAmount ∧ zero = false ∧ ∃ m ∈ tx.msgs, ∃ n, m.2.2 = .registry (.claimStake n) := by
  have hi := banked_inv P zero setup B ops
  unfold execB at h
  split at h
  · simp at h
  · rename_i hs
    have hnone : setup tx.sender = none := by
      rw [isSome_world hi.inv] at hs
      simpa using hs
    obtain ⟨h1, h2, p, hp, n, hn⟩ := runB_why _ hi (by
      intro p hp
      obtain ⟨m, _, rfl⟩ := List.mem_map.mp hp
      exact ⟨.inl hnone, .inl hnone⟩) h
    obtain ⟨m, hm, rfl⟩ := List.mem_map.mp hp
    exact ⟨h1, h2, m, hm, n, hn⟩

/-- C81: the balance of a registry covers all stake, bonded or unbonding, of all its services -/
theorem C81_backed_registry (P : Params) (zero : Bool) (setup : Setup) (B : Bank) (ops : List Op) {a gov : Addr}
    (hk : setup a = some (.registry gov)) : ∃ s, (bankedAfter P zero setup B ops).1 a = some (.registry s) ∧
      ∀ d, Registry.owed s d ≤ (bankedAfter P zero setup B ops).2 a d := by
  have hi := banked_inv P zero setup B ops
  refine ⟨_, hi.inv.registry_state hk, fun d => ?_⟩
  have h1 := hi.inv.registry_owed hk d
  have h2 := hi.backed a d (by rw [hk]; rfl)
  omega

/-- C81: the balance of a rewards contract covers all its pools -/
theorem C81_backed_rewards (P : Params) (zero : Bool) (setup : Setup) (B : Bank) (ops : List Op) {a : Addr}
    {cfg : Rewards.Config} {p : Rewards.Params} {h : Nat} (hk : setup a = some (.rewards cfg p h)) :
    ∃ s, (bankedAfter P zero setup B ops).1 a = some (.rewards s) ∧
      Rewards.totalPools s ≤ (bankedAfter P zero setup B ops).2 a cfg.denom := by
  have hi := banked_inv P zero setup B ops
  refine ⟨_, hi.inv.rewards_state hk, ?_⟩
  have h1 := hi.inv.rewards_pools hk
  have h2 := hi.backed a cfg.denom (by rw [hk]; rfl)
  omega

/-- C81: once the unbonding period is over, a claim succeeds and moves to the worker exactly what the worker
deposited since the start and was not paid back, and changes no other balance.  Only a claim of nothing can be
refused, if the bank does not let zero amounts pass. -/
theorem C81_claim (P : Params) (zero : Bool) (setup : Setup) (B : Bank) (ops : List Op) {R gov : Addr}
    (hk : setup R = some (.registry gov)) (tx : Tx) (n : Str) (sv : Registry.Service) (u : Registry.Call)
    (hs : setup tx.sender = none) (hm : tx.msgs = [(R, [], .registry (.claimStake n))]) (hg : 1 ≤ tx.gas)
    (hist : List (Registry.Call × Registry.Resp))
    (hh : hist = Registry.history gov (registryCalls R (bankedLog P zero setup B ops)))
    (hsv : Registry.registered hist n = some sv)
    (hl : Registry.lastOwn hist n tx.sender = some u) (hu : u.msg = .unbondWorker n)
    (ht : u.time + sv.unbondingDays * Registry.dayNanos ≤ tx.block.time) (hmax : tx.block.time ≤ u64Max)
    (stake : Nat)
    (hst : stake = Registry.deposits hist n sv.denom tx.sender - Registry.payouts hist n tx.sender) :
    (stake ≠ 0 ∨ zero = true → ∃ w' B' es,
      execB P zero (bankedAfter P zero setup B ops).1 (bankedAfter P zero setup B ops).2 tx = .ok (w', B', es) ∧
      ∀ x d, B' x d + (if x = R ∧ d = sv.denom then stake else 0) =
        (bankedAfter P zero setup B ops).2 x d + (if x = tx.sender ∧ d = sv.denom then stake else 0)) ∧
    (stake = 0 → zero = false →
      execB P zero (bankedAfter P zero setup B ops).1 (bankedAfter P zero setup B ops).2 tx =
        .error (.payment .zeroAmount)) := by
  have hi := banked_inv P zero setup B ops
  subst hh
  obtain ⟨s', hx⟩ := Registry.C33_claimable gov (registryCalls R (bankedLog P zero setup B ops))
    ⟨tx.sender, [], tx.block.time, .claimStake n⟩ n sv u hsv rfl hl hu ht hmax
  simp only at hx
  rw [← hst] at hx
  have hw := hi.inv.registry_state hk
  have hd : deliver P tx.block (bankedAfter P zero setup B ops).1
      ⟨tx.sender, R, [], .registry (.claimStake n)⟩ = .ok (KV.set (bankedAfter P zero setup B ops).1 R (.registry s'),
        [⟨⟨tx.sender, R, [], .registry (.claimStake n)⟩,
          .registry ⟨tx.sender, [], tx.block.time, .claimStake n⟩ { sends := [(tx.sender, (sv.denom, stake))] }⟩], []) := by
    simp [deliver, call, hw, hx, Entry.sent, Act.outs]
  obtain ⟨h1, h2⟩ := execB_one (zero := zero) hi hs hm hg hd
  simp only [Act.sends] at h1 h2
  rw [h2]
  refine ⟨?_, ?_⟩
  · intro hz
    obtain ⟨B', hB⟩ := moveAll_succeeds (zero := zero) (B := (bankedAfter P zero setup B ops).2) h1 (by
      rcases hz with hz | hz
      · right
        intro y hy
        simp only [List.mem_singleton] at hy
        subst hy; exact hz
      · exact .inl hz)
    refine ⟨_, B', _, by rw [hB], ?_⟩
    intro x d
    have := moveAll_ok hB x d
    simp only [credited, List.map_cons, List.map_nil, List.sum_cons, List.sum_nil, Registry.allOf] at this
    by_cases h3 : d = sv.denom
    · subst h3
      simpa [eq_comm] using this
    · simpa [h3, Ne.symm h3] using this
  · intro h0 hz
    subst hz
    simp [Bank.moveAll, Bank.move, h0]

/-- C81: a distribution that the rewards contract accepts succeeds; every worker gets exactly what it is due for
the epochs paid, and no other balance changes but that of the rewards contract. -/
theorem C81_distribution (P : Params) (zero : Bool) (setup : Setup) (B : Bank) (ops : List Op) {R : Addr}
    {cfg : Rewards.Config} {q : Rewards.Params} {h : Nat} (hk : setup R = some (.rewards cfg q h)) (tx : Tx)
    (k : Addr) (n : Option Nat) (hs : setup tx.sender = none)
    (hm : tx.msgs = [(R, [], .rewards (.distributeRewards k n))]) (hg : 1 ≤ tx.gas)
    {s s' : Rewards.State} {r : Rewards.Resp} (hw : (bankedAfter P zero setup B ops).1 R = some (.rewards s))
    (hx : Rewards.exec s ⟨tx.sender, [], tx.block.height, .distributeRewards k n⟩ = .ok (s', r)) :
    ∃ w' B' es,
      execB P zero (bankedAfter P zero setup B ops).1 (bankedAfter P zero setup B ops).2 tx = .ok (w', B', es) ∧
      ∀ x d, B' x d + (if x = R ∧ d = cfg.denom then Rewards.poolOf s k - Rewards.poolOf s' k else 0) =
        (bankedAfter P zero setup B ops).2 x d + (if d = cfg.denom then
          ((List.range' (Rewards.done s k) (Rewards.done s' k - Rewards.done s k)).map (Rewards.due s k x)).sum
          else 0) := by
  have hi := banked_inv P zero setup B ops
  have hst := hi.inv.rewards_state hk
  rw [hw] at hst
  simp only [Option.some.injEq, Store.rewards.injEq] at hst
  have hinv : Rewards.Inv s := by rw [hst]; exact Rewards.inv_reachable ..
  have hcfg : s.config = cfg := by rw [hst]; exact rewards_config ..
  obtain ⟨e, _, _, _, _, h5, _, h7, _, _, h10, _⟩ := Rewards.distribution hinv hx rfl
  have hd : deliver P tx.block (bankedAfter P zero setup B ops).1
      ⟨tx.sender, R, [], .rewards (.distributeRewards k n)⟩ =
      .ok (KV.set (bankedAfter P zero setup B ops).1 R (.rewards s'),
        [⟨⟨tx.sender, R, [], .rewards (.distributeRewards k n)⟩,
          .rewards ⟨tx.sender, [], tx.block.height, .distributeRewards k n⟩ r⟩], []) := by
    simp [deliver, call, hw, hx, Entry.sent, Act.outs]
  obtain ⟨h1, h2⟩ := execB_one (zero := zero) hi hs hm hg hd
  simp only [Act.sends] at h1 h2
  rw [h2]
  obtain ⟨B', hB⟩ := moveAll_succeeds (zero := zero) (B := (bankedAfter P zero setup B ops).2) h1
    (.inr (rewards_pos hinv hx))
  refine ⟨_, B', _, by rw [hB], ?_⟩
  intro x d
  have hmv := moveAll_ok hB x d
  have hcr : credited r.sends x d = if d = cfg.denom then Rewards.paidTo r x else 0 := by
    unfold credited Rewards.paidTo
    rw [hcfg] at h10
    clear hB hmv hx hd h1 h2 h5 h7
    generalize r.sends = xs at h10 ⊢
    induction xs with
    | nil => simp
    | cons y t ih =>
      have hy := h10 y (List.mem_cons_self ..)
      have ih := ih (fun z hz => h10 z (List.mem_cons_of_mem _ hz))
      simp only [List.map_cons, List.sum_cons, ih, hy]
      by_cases hd : d = cfg.denom
      · simp [hd]
      · simp [hd, Ne.symm hd]
  have hal : Registry.allOf d (r.sends.map Prod.snd) = if d = cfg.denom then Rewards.paidOut r else 0 := by
    rw [hcfg] at h10
    split
    · rename_i hd
      rw [hd]
      exact Rewards.amountOf_sends h10
    · rename_i hd
      apply allOf_zero
      intro c hc
      obtain ⟨y, hy, rfl⟩ := List.mem_map.mp hc
      rw [h10 y hy]; exact Ne.symm hd
  rw [hcr, hal] at hmv
  rw [← h5]
  have h8 : Rewards.poolOf s k - Rewards.poolOf s' k = Rewards.paidOut r := by omega
  rw [h8]
  by_cases hd : d = cfg.denom
  · simpa [hd] using hmv
  · simpa [hd] using hmv

/-! ### A concrete history

The history of `Chain/Example.lean` with balances: the workers get ten coins each and bond them, 9 funds the pool of
the verifier of `eth`, the poll is rewarded and worker 5 leaves. -/

def axl : Str := "axl".toList

def exOps : List Op :=
  [.mint 5 (axl, 10), .mint 6 (axl, 10), .mint 7 (axl, 12), .mint 9 (axl, 3000),
    .transfer 7 8 (axl, 1), .burn 7 (axl, 1)] ++ exTxs.map .tx ++
  [.tx (exTx 9 30 11 (.rewards (.addRewards 12)) [(axl, 2500)]),
    .tx (exTx 5 31 10 (.registry (.unbondWorker svc)))]

/-- claim of worker 5 after one day (a block is five seconds) -/
def exClaim : Tx := exTx 5 17312 10 (.registry (.claimStake svc))
/-- distribution for the verifier of `eth` -/
def exDistribute : Tx := exTx 8 250 11 (.rewards (.distributeRewards 12 none))

def exBank : Bank := fun _ _ => 0

/-- the history is not a failure: everything of the history without balances is delivered, and two more messages -/
example : (bankedLog exP false exSetup exBank exOps).length = (log exP exSetup exTxs).length + 2 := by
  decide +kernel

/-- the registry has the stake of three workers, the rewards contract its pool -/
example : (bankedAfter exP false exSetup exBank exOps).2 10 axl = 30 ∧
    (bankedAfter exP false exSetup exBank exOps).2 11 axl = 2500 ∧
    (bankedAfter exP false exSetup exBank exOps).2 5 axl = 0 ∧
    (bankedAfter exP false exSetup exBank exOps).2 9 axl = 500 := by
  decide +kernel

def exBalances : Except Why (World × Bank × List Entry) → Option (List Nat)
  | .ok (_, B, _) => some ([5, 6, 7, 10, 11].map (B · axl))
  | .error _ => none

/-- the hypotheses of `C81_claim` hold -/
example : ∃ sv u, Registry.registered
      (Registry.history 1 (registryCalls 10 (bankedLog exP false exSetup exBank exOps))) svc = some sv ∧
    Registry.lastOwn (Registry.history 1 (registryCalls 10 (bankedLog exP false exSetup exBank exOps))) svc 5 = some u ∧
    u.msg = .unbondWorker svc ∧ u.time + sv.unbondingDays * Registry.dayNanos ≤ exClaim.block.time :=
  ⟨⟨10, axl, 1⟩, ⟨5, [], 155000000000, .unbondWorker svc⟩, by decide +kernel⟩

/-- worker 5 gets its stake back; the rewards of an epoch, 1000, are shared by the two workers that voted -/
example :
    exBalances (execB exP false (bankedAfter exP false exSetup exBank exOps).1
      (bankedAfter exP false exSetup exBank exOps).2 exClaim) = some [10, 0, 0, 20, 2500] ∧
    exBalances (execB exP false (bankedAfter exP false exSetup exBank exOps).1
      (bankedAfter exP false exSetup exBank exOps).2 exDistribute) = some [500, 500, 0, 30, 1500] := by
  decide +kernel

/-- why a transaction of a history failed -/
def whyNot : Except Why (World × Bank × List Entry) → Option Why
  | .error e => some e
  | .ok _ => none

/-- a worker that never bonded anything can claim nothing: where the bank refuses zero amounts, this is the payment
that fails (`C81_pays`) -/
example : whyNot (execB exP false
      (bankedAfter exP false exSetup exBank (exOps ++ [.tx (exTx 8 32 10 (.registry (.bondWorker svc))),
        .tx (exTx 8 32 10 (.registry (.unbondWorker svc)))])).1
      (bankedAfter exP false exSetup exBank exOps).2 (exTx 8 17312 10 (.registry (.claimStake svc)))) =
    some (.payment .zeroAmount) := by
  decide +kernel

/-- coins that the sender does not have are not attached: the transaction fails before anything is called -/
example : whyNot (execB exP false (bankedAfter exP false exSetup exBank exOps).1
    (bankedAfter exP false exSetup exBank exOps).2 (exTx 9 40 11 (.rewards (.addRewards 12)) [(axl, 501)])) =
    some .funds := by
  decide +kernel

end Amp.Chain
