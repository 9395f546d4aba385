import Verif.Wire.StoredSpec
import Verif.Wire.HashProps
import Verif.Wire.SentTyped
import Verif.Encoding.Octets
import Verif.Registry.Lemmas
import Verif.Rewards.Lemmas

/-!
# Lemmas for C98: what contracts store stays in range
-/

namespace Amp.Wire

open Amp.Router (ChainName Lowering CCId Message)
open Amp.Chain (Msg Params Block World Store Setup Pending Entry Act)

variable {L : Lowering}

/-- everything stored is in range, and so is the chain id of a prover -/
def StoreFits (L : Lowering) (s : Store) : Prop :=
  (∀ k v, stored s k = some v → v.InRange L) ∧
    ∀ p sv kt, s = .prover p sv kt → p.config.destinationChainId ≤ u256Max

/-! ### Voting verifier -/

structure VerifierFits (L : Lowering) (s : VV.State) : Prop where
  last : s.lastPollId ≤ u64Max
  polls : ∀ id p, s.polls id = some p → PollInRange p.poll
  messages : ∀ h c, s.pollMessages h = some c → MessageTyped L c.content ∧ c.pollId ≤ u64Max ∧ c.index ≤ maxU32
  sets : ∀ h c, s.pollWorkerSets h = some c → OperatorsFit c.content ∧ c.pollId ≤ u64Max ∧ c.index ≤ maxU32

theorem fits_verifier {s : VV.State} : StoreFits L (.verifier s) ↔ VerifierFits L s := by
  constructor
  · intro h
    exact ⟨h.1 .pollId _ rfl, fun id p hp => h.1 (.poll id) (.poll p) (by simp [stored, hp]),
      fun d c hc => h.1 (.pollMessage d) (.polledMessage c) (by simp [stored, hc]),
      fun d c hc => h.1 (.pollWorkerSet d) (.polledSet c) (by simp [stored, hc])⟩
  · intro h
    refine ⟨?_, fun p sv kt e => by cases e⟩
    intro k v hv
    cases k <;> simp only [stored, Option.some.injEq, Option.map_eq_some_iff, reduceCtorEq] at hv
    · rw [← hv]; exact h.last
    · obtain ⟨p, hp, rfl⟩ := hv; exact h.polls _ _ hp
    · obtain ⟨p, hp, rfl⟩ := hv; exact h.messages _ _ hp
    · obtain ⟨p, hp, rfl⟩ := hv; exact h.sets _ _ hp

theorem snapshot_fits {th : Std.MajorityThreshold} {ps : List (Addr × Nat)} {sn : Std.Snapshot}
    (h : Std.Snapshot.new th ps = .ok sn) (hp : ∀ p ∈ ps, p.2 = 1) :
    sn.quorum ≤ u256Max ∧ OMap.Sorted sn.participants ∧ ∀ e ∈ sn.participants, e.2 ≤ u256Max := by
  unfold Std.Snapshot.new at h
  split at h
  · simp at h
  split at h
  · simp at h
  split at h
  · simp at h
  rename_i q hq
  split at h
  · simp at h
  simp only [Except.ok.injEq] at h
  rw [← h]
  refine ⟨?_, OMap.sorted_ofList _, ?_⟩
  · unfold Std.mulCeil at hq
    dsimp only at hq
    split at hq <;> split at hq
    all_goals first
      | (rename_i hle; simp only [Except.ok.injEq] at hq; rw [← hq]; exact hle)
      | cases hq
  · intro e he
    rw [hp e (Prover.mem_of_mem_ofList _ he)]
    decide

theorem poll_new_fits {id : Nat} {sn : Std.Snapshot} {x n : Nat} (hi : id ≤ u64Max) (hx : x ≤ u64Max) (hn : n ≤ u64Max)
    (hs : sn.quorum ≤ u256Max ∧ OMap.Sorted sn.participants ∧ ∀ e ∈ sn.participants, e.2 ≤ u256Max) :
    PollInRange (Std.Poll.new id sn x n) := by
  refine ⟨hi, hs.1, hx, hn, ?_, ?_, ?_⟩
  · intro t ht v
    rw [List.eq_of_mem_replicate ht]
    cases v <;> exact Nat.zero_le _
  · intro e he
    obtain ⟨p, hp, rfl⟩ := List.mem_map.mp he
    exact hs.2.2 p hp
  · exact List.Pairwise.map _ (fun a b h => h) hs.2.1

theorem castVote_fits {p p' : Std.Poll} {h : Nat} {a : Addr} {vs : List Std.Vote} (hc : p.castVote h a vs = .ok p')
    (hp : PollInRange p) : PollInRange p' := by
  obtain ⟨w, h1, h2, h3, h4, rfl⟩ := Std.Poll.castVote_ok hc
  refine ⟨hp.pollId, hp.quorum, hp.expiresAt, hp.pollSize, ?_, ?_, OMap.sorted_set hp.sorted _ _⟩
  · intro t ht v
    have := List.any_eq_false.mp h4 t ht
    unfold Std.Tallies.exceeds at this
    simp only [Bool.or_eq_true, decide_eq_true_eq, not_or, not_lt] at this
    cases v
    · exact this.2
    · exact this.1.1
    · exact this.1.2
  · intro e he
    rcases OMap.mem_set he with rfl | he
    · have := hp.weights _ (OMap.mem_of_get? h1)
      exact this
    · exact hp.weights _ he

theorem finish_fits {p p' : Std.Poll} {h : Nat} (hc : p.finish h = .ok p') (hp : PollInRange p) : PollInRange p' := by
  unfold Std.Poll.finish at hc
  split at hc
  · simp at hc
  split at hc
  · simp at hc
  simp only [Except.ok.injEq] at hc
  rw [← hc]
  exact ⟨hp.pollId, hp.quorum, hp.expiresAt, hp.pollSize, hp.tallies, hp.weights, hp.sorted⟩

theorem createPoll_stored {s s1 : VV.State} {height : Nat} {ws : Option (List Registry.Worker)} {snap : Std.Snapshot}
    {k : VV.PollKind} {n id : Nat} (hsn : VV.takeSnapshot s.config ws = .ok snap)
    (h : VV.createPoll s height snap k n = .ok (id, s1)) (hn : n ≤ u64Max) (hs : VerifierFits L s) :
    id ≤ u64Max ∧ VerifierFits L s1 := by
  obtain ⟨ws, _, hsn⟩ := VV.takeSnapshot_ok hsn
  have hsf := snapshot_fits hsn (by
    intro p hp
    obtain ⟨w, _, rfl⟩ := List.mem_map.mp hp
    rfl)
  unfold VV.createPoll at h
  split at h
  · simp at h
  rename_i i hi
  unfold Std.counterIncr at hi
  split at hi
  · rename_i hle
    simp only [Option.some.injEq] at hi
    subst hi
    split at h
    · simp at h
    rename_i hexp
    simp only [Except.ok.injEq, Prod.mk.injEq] at h
    obtain ⟨rfl, rfl⟩ := h
    refine ⟨hle, hle, ?_, hs.messages, hs.sets⟩
    intro x p hp
    have hp : (s.polls.set (s.lastPollId + 1) ⟨k, Std.Poll.new (s.lastPollId + 1) snap (height + s.config.blockExpiry) n⟩) x =
      some p := hp
    by_cases hx : x = s.lastPollId + 1
    · subst hx
      rw [KV.set_self] at hp
      simp only [Option.some.injEq] at hp
      rw [← hp]
      exact poll_new_fits hle (by omega) hn hsf
    · rw [KV.set_ne _ _ hx] at hp
      exact hs.polls _ _ hp
  · simp at hi

theorem polls_set {s : VV.State} (hs : VerifierFits L s) {id : Nat} {p : VV.StoredPoll} (hp : PollInRange p.poll) :
    VerifierFits L { s with polls := s.polls.set id p } := by
  refine ⟨hs.last, ?_, hs.messages, hs.sets⟩
  intro x q hq
  have hq : (s.polls.set id p) x = some q := hq
  by_cases hx : x = id
  · subst hx
    rw [KV.set_self] at hq
    simp only [Option.some.injEq] at hq
    rw [← hq]; exact hp
  · rw [KV.set_ne _ _ hx] at hq
    exact hs.polls _ _ hq

theorem verifier_kept {H : VV.Hashes} {s s' : VV.State} {c : VV.Call} {r : VV.Resp} (h : VV.exec H s c = .ok (s', r))
    (ht : Typed L (.verifier c.msg)) (hs : VerifierFits L s) : VerifierFits L s' := by
  unfold VV.exec at h
  split at h
  · rename_i ms hm
    rw [hm] at ht
    have ht : ∀ m ∈ ms, MessageTyped L m := ht
    unfold VV.verifyMessages at h
    split at h
    · simp at h
    split at h
    · simp at h
    split at h
    · simp at h
    split at h
    · simp at h
    rename_i sts _
    dsimp only at h
    split at h
    · simp only [Except.ok.injEq, Prod.mk.injEq] at h; rw [← h.1]; exact hs
    split at h
    · simp at h
    rename_i snap hsn
    split at h
    · simp at h
    rename_i id s1 hcp
    split at h
    · simp at h
    rename_i hlen
    split at h
    · simp at h
    simp only [Except.ok.injEq, Prod.mk.injEq] at h
    rw [← h.1]
    obtain ⟨hid, hs1⟩ := createPoll_stored hsn hcp (le_trans (not_lt.mp hlen) (by decide)) hs
    refine ⟨hs1.last, hs1.polls, ?_, hs1.sets⟩
    intro d pc hpc
    rcases VV.saveMessages_cases hpc with ⟨h1, _⟩ | ⟨h1, _, h3, _⟩
    · exact hs1.messages _ _ h1
    · refine ⟨?_, h1 ▸ hid, ?_⟩
      · have hmem := List.mem_of_getElem? h3
        obtain ⟨p, hp, hpe⟩ := List.mem_map.mp hmem
        rw [← hpe]
        exact ht p.2 (List.of_mem_zip (List.mem_filter.mp hp).1).2
      · obtain ⟨hl, _⟩ := List.getElem?_eq_some_iff.mp h3
        have : (2 : Nat) ^ 32 = maxU32 + 1 := by decide
        omega
  · obtain ⟨sp, p, hsp, hc, rfl, _⟩ := VV.vote_ok h
    exact polls_set hs (castVote_fits hc (hs.polls _ _ hsp))
  · obtain ⟨sp, p, hsp, hc, rfl, _⟩ := VV.endPoll_ok h
    exact polls_set hs (finish_fits hc (hs.polls _ _ hsp))
  · rename_i mid o hm
    rw [hm] at ht
    unfold VV.verifyWorkerSet at h
    split at h
    · simp at h
    · simp at h
    split at h
    · simp at h
    rename_i snap hsn
    split at h
    · simp at h
    rename_i id s1 hcp
    split at h
    · simp at h
    simp only [Except.ok.injEq, Prod.mk.injEq] at h
    rw [← h.1]
    obtain ⟨hid, hs1⟩ := createPoll_stored hsn hcp (by decide) hs
    refine ⟨hs1.last, hs1.polls, hs1.messages, ?_⟩
    intro d pc hpc
    have hpc : (s1.pollWorkerSets.set (H.ops o) ⟨o, id, 0⟩) d = some pc := hpc
    by_cases hd : d = H.ops o
    · subst hd
      rw [KV.set_self] at hpc
      simp only [Option.some.injEq] at hpc
      rw [← hpc]
      exact ⟨ht.2, hid, Nat.zero_le _⟩
    · rw [KV.set_ne _ _ hd] at hpc
      exact hs1.sets _ _ hpc

/-! ### Gateway, nexus gateway -/

theorem fits_gateway {s : Gateway.State} (h : StoreTyped L (.gateway s)) : StoreFits L (.gateway s) := by
  refine ⟨?_, fun p sv kt e => by cases e⟩
  intro k v hv
  cases k <;> simp only [stored, Option.map_eq_some_iff, reduceCtorEq] at hv
  obtain ⟨p, hp, rfl⟩ := hv
  exact h _ _ hp

theorem fits_nexus {s : Nexus.State} : StoreFits L (.nexus s) := by
  refine ⟨?_, fun p sv kt e => by cases e⟩
  intro k v hv
  cases k <;> simp only [stored, Option.map_eq_some_iff, reduceCtorEq] at hv
  obtain ⟨p, hp, rfl⟩ := hv
  trivial

/-! ### Router -/

def RouterFits (L : Lowering) (s : Router.State) : Prop :=
  ∀ n e, Router.lookup s.chains n = some e → e.name.Valid L ∧ e.frozen.toNat ≤ 3

theorem fits_router {s : Router.State} : StoreFits L (.router s) ↔ RouterFits L s := by
  constructor
  · intro h n e he
    exact h.1 (.chain n) (.endpoint e) (by simp [stored, he])
  · intro h
    refine ⟨?_, fun p sv kt e => by cases e⟩
    intro k v hv
    cases k <;> simp only [stored, Option.map_eq_some_iff, reduceCtorEq] at hv
    obtain ⟨p, hp, rfl⟩ := hv
    exact h _ _ hp

theorem flags_or (d : Router.Direction) : ∀ f : BitVec 8, f.toNat ≤ 3 → (f ||| d.bits).toNat ≤ 3 := by
  cases d <;> decide +kernel

theorem flags_and (d : Router.Direction) : ∀ f : BitVec 8, f.toNat ≤ 3 → (f &&& ~~~ d.bits).toNat ≤ 3 := by
  cases d <;> decide +kernel

theorem router_store {s : Router.State} (hs : RouterFits L s) {n : ChainName} {e : Router.ChainEndpoint}
    (he : e.name.Valid L ∧ e.frozen.toNat ≤ 3) : RouterFits L { s with chains := Router.store s.chains n e } := by
  intro x y hy
  have hy : Router.lookup (Router.store s.chains n e) x = some y := hy
  by_cases hx : x = n
  · subst hx
    rw [Router.lookup_store_self] at hy
    simp only [Option.some.injEq] at hy
    rw [← hy]; exact he
  · rw [Router.lookup_store_ne hx] at hy
    exact hs _ _ hy

theorem router_kept {s s' : Router.State} {c : Router.Call} {r : Router.Resp} (h : Router.exec s c = .ok (s', r))
    (ht : Typed L (.router c.msg)) (hs : RouterFits L s) : RouterFits L s' := by
  unfold Router.exec at h
  split at h
  · rename_i n gw hm
    rw [hm] at ht
    split at h
    · simp at h
    unfold Router.registerChain at h
    split at h
    · simp at h
    · simp at h
    split at h
    · simp at h
    simp only [Except.ok.injEq, Prod.mk.injEq] at h
    rw [← h.1]
    exact router_store hs ⟨ht, by show (0 : BitVec 8).toNat ≤ 3; decide⟩
  · split at h
    · simp at h
    unfold Router.upgradeGateway at h
    split at h
    · simp at h
    · simp at h
    split at h
    · simp at h
    rename_i e he
    simp only [Except.ok.injEq, Prod.mk.injEq] at h
    rw [← h.1]
    exact router_store hs ⟨(hs _ _ he).1, (hs _ _ he).2⟩
  · split at h
    · simp at h
    unfold Router.freezeChain at h
    split at h
    · simp at h
    rename_i e he
    simp only [Except.ok.injEq, Prod.mk.injEq] at h
    rw [← h.1]
    exact router_store hs ⟨(hs _ _ he).1, flags_or _ _ (hs _ _ he).2⟩
  · split at h
    · simp at h
    unfold Router.unfreezeChain at h
    split at h
    · simp at h
    rename_i e he
    simp only [Except.ok.injEq, Prod.mk.injEq] at h
    rw [← h.1]
    exact router_store hs ⟨(hs _ _ he).1, flags_and _ _ (hs _ _ he).2⟩
  · unfold Router.routeMessages at h
    split at h
    · simp at h
    split at h
    · simp at h
    simp only [Except.ok.injEq, Prod.mk.injEq] at h
    rw [← h.1]; exact hs

/-! ### Service registry -/

def RegistryFits (s : Registry.State) : Prop :=
  ∀ n sv, Registry.findService s.services n = some sv → sv.minBond ≤ u128Max ∧ sv.unbondingDays ≤ u16Max

theorem fits_registry {s : Registry.State} (ht : StoreTyped L (.registry s)) :
    StoreFits L (.registry s) ↔ RegistryFits s := by
  constructor
  · intro h n sv hsv
    exact h.1 (.service n) (.service n sv) (by simp [stored, hsv])
  · intro h
    refine ⟨?_, fun p sv kt e => by cases e⟩
    intro k v hv
    cases k <;> simp only [stored, Option.map_eq_some_iff, Option.bind_eq_some_iff, reduceCtorEq] at hv
    · obtain ⟨p, hp, rfl⟩ := hv; exact h _ _ hp
    · obtain ⟨p, hp, rfl⟩ := hv; exact ht _ _ _ hp
    · obtain ⟨_, _, p, hp, rfl⟩ := hv; trivial

theorem foldAuth_services {n : Str} {x : Registry.AuthState} (ws : List Addr) : ∀ {s : Registry.State},
    (ws.foldl (Registry.setAuth n x) s).services = s.services := by
  induction ws with
  | nil => intro s; rfl
  | cons a t ih =>
    intro s
    rw [List.foldl_cons, ih]
    unfold Registry.setAuth
    split <;> rfl

theorem registry_kept {s s' : Registry.State} {c : Registry.Call} {r : Registry.Resp} (h : Registry.exec s c = .ok (s', r))
    (ht : Typed L (.registry c.msg)) (hs : RegistryFits s) : RegistryFits s' := by
  have same : s'.services = s.services → RegistryFits s' := by
    intro e n sv hn
    rw [e] at hn; exact hs _ _ hn
  have auth : ∀ ws n x, Registry.updateAuth s ws n x = .ok (s', r) → RegistryFits s' := by
    intro ws n x h
    unfold Registry.updateAuth at h
    split at h
    · simp at h
    simp only [Except.ok.injEq, Prod.mk.injEq] at h
    refine same ?_
    rw [← h.1]; exact foldAuth_services ws
  unfold Registry.exec at h
  split at h
  · rename_i n sv hm
    rw [hm] at ht
    split at h
    · simp at h
    unfold Registry.registerService at h
    split at h
    · simp only [Except.ok.injEq, Prod.mk.injEq] at h
      rw [← h.1]
      intro x y hy
      have hy : Registry.findService (s.services ++ [(n, sv)]) x = some y := hy
      rw [Registry.findService_append] at hy
      split at hy
      · rename_i z hz
        simp only [Option.some.injEq] at hy
        rw [← hy]; exact hs _ _ hz
      · split at hy
        · simp only [Option.some.injEq] at hy
          rw [← hy]; exact ht
        · simp at hy
    · simp at h
  · split at h
    · simp at h
    exact auth _ _ _ h
  · split at h
    · simp at h
    exact auth _ _ _ h
  · unfold Registry.declareChains at h
    split at h
    · simp at h
    split at h
    · simp at h
    simp only [Except.ok.injEq, Prod.mk.injEq] at h
    exact same (by rw [← h.1])
  · unfold Registry.bondWorker at h
    split at h
    · simp at h
    split at h
    · simp at h
    split at h
    · split at h
      · simp at h
      simp only [Except.ok.injEq, Prod.mk.injEq] at h
      exact same (by rw [← h.1]; rfl)
    · simp only [Except.ok.injEq, Prod.mk.injEq] at h
      exact same (by rw [← h.1]; rfl)
  · unfold Registry.unbondWorker at h
    split at h
    · simp at h
    split at h
    · simp at h
    split at h
    · simp at h
    simp only [Except.ok.injEq, Prod.mk.injEq] at h
    exact same (by rw [← h.1]; rfl)
  · unfold Registry.claimStake at h
    split at h
    · simp at h
    split at h
    · simp at h
    split at h
    · simp at h
    simp only [Except.ok.injEq, Prod.mk.injEq] at h
    exact same (by rw [← h.1]; rfl)

end Amp.Wire
