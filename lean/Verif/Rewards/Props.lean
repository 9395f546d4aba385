import Verif.Rewards.Lemmas

/-!
# C38 - C44: the rewards contract

For every configuration, initial parameters and height, and every list of calls by arbitrary senders.
-/

namespace Amp.Rewards

open Amp.Std

/-! ### concrete data for the non-vacuity checks -/

/-- governance 1, denomination `axl` -/
def exCfg : Config := ⟨1, "axl".toList⟩

/-- epochs of 10 blocks, 101 coins per epoch, threshold one half -/
def exParams : Params := ⟨10, 101, ⟨1, 2⟩⟩

/-- contract 7 records events `a` (workers 21, 22, 23) and `b` (worker 21 and, late, 23 twice); the pool
of contract 7 is filled; two epochs later rewards are distributed -/
def exCalls : List Call := [
  ⟨7, [], 6, .recordParticipation "a".toList 22⟩,
  ⟨7, [], 6, .recordParticipation "a".toList 21⟩,
  ⟨7, [], 14, .recordParticipation "b".toList 21⟩,
  ⟨7, [], 17, .recordParticipation "b".toList 23⟩,
  ⟨7, [], 18, .recordParticipation "b".toList 23⟩,
  ⟨7, [], 18, .recordParticipation "a".toList 23⟩,
  ⟨4, [("axl".toList, 500)], 20, .addRewards 7⟩,
  ⟨3, [], 24, .distributeRewards 7 none⟩,
  ⟨3, [], 25, .distributeRewards 7 none⟩,
  ⟨1, [], 26, .updateParams ⟨3, 50, ⟨1, 1⟩⟩⟩]

/-! ### C40, C41: one epoch -/

/-- C41: the workers rewarded for an epoch are exactly those whose participations, as a fraction of the
events of the epoch, reach the threshold without exceeding one. -/
theorem C41_eligibility (t : Tally) (hs : OMap.Sorted t.participation) (a : Addr) :
    a ∈ workersToReward t ↔ ∃ k, t.participation.get? a = some k ∧ 0 < k ∧ k ≤ t.eventCount ∧
      t.params.threshold.num * t.eventCount ≤ k * t.params.threshold.den := by
  rw [workersToReward_eq hs, List.mem_filter]
  constructor
  · rintro ⟨_, h⟩
    unfold eligible at h
    split at h
    · simp at h
    · rename_i k hk
      simp only [decide_eq_true_eq] at h
      exact ⟨k, hk, h⟩
  · rintro ⟨k, hk, h⟩
    have : eligible t a = true := by simp only [eligible, hk, decide_eq_true_eq]; exact h
    exact ⟨eligible_mem this, this⟩

/-- C40: the rewards of an epoch: every eligible worker once, with the same share, the rewards per epoch
divided by the number of eligible workers and rounded down; nobody else; nothing if the share is zero. -/
theorem C40_shares (t : Tally) (hs : OMap.Sorted t.participation) (a : Addr) (x : Nat) :
    ((rewardsByWorker t).map Prod.fst).Nodup ∧
    ((a, x) ∈ rewardsByWorker t ↔
      a ∈ workersToReward t ∧ x = t.params.rewards / (workersToReward t).length ∧ 0 < x) := by
  have hnd : (workersToReward t).Nodup := by
    rw [workersToReward_eq hs]; exact (OMap.keys_nodup hs).filter _
  unfold rewardsByWorker
  simp only
  by_cases h0 : (workersToReward t).length = 0
  · rw [if_pos h0, if_pos rfl]
    have : workersToReward t = [] := List.length_eq_zero_iff.mp h0
    simp [this]
  · rw [if_neg h0]
    by_cases h1 : t.params.rewards / (workersToReward t).length = 0
    · rw [if_pos h1]
      refine ⟨by simp, ?_⟩
      simp only [List.not_mem_nil, false_iff]
      rintro ⟨_, rfl, h⟩
      omega
    · rw [if_neg h1]
      refine ⟨by simpa [Function.comp_def] using hnd, ?_⟩
      simp only [List.mem_map, Prod.mk.injEq]
      constructor
      · rintro ⟨w, hw, rfl, rfl⟩; exact ⟨hw, rfl, Nat.pos_of_ne_zero h1⟩
      · rintro ⟨hw, rfl, _⟩; exact ⟨a, hw, rfl, rfl⟩

/-- C40: an epoch never pays more than its rewards, and keeps back less than one coin per eligible
worker. -/
theorem C40_bound (t : Tally) (hs : OMap.Sorted t.participation) :
    ((rewardsByWorker t).map Prod.snd).sum ≤ t.params.rewards ∧
    (workersToReward t ≠ [] →
      t.params.rewards < ((rewardsByWorker t).map Prod.snd).sum + (workersToReward t).length) := by
  have hsum : ((rewardsByWorker t).map Prod.snd).sum =
      (workersToReward t).length * (t.params.rewards / (workersToReward t).length) := by
    unfold rewardsByWorker
    simp only
    by_cases h0 : (workersToReward t).length = 0
    · rw [if_pos h0, if_pos rfl, h0]; simp
    · rw [if_neg h0]
      by_cases h1 : t.params.rewards / (workersToReward t).length = 0
      · rw [if_pos h1, h1]; simp
      · rw [if_neg h1]
        generalize t.params.rewards / (workersToReward t).length = x
        induction workersToReward t with
        | nil => simp
        | cons a l ih =>
          simp only [List.map_cons, List.sum_cons, List.length_cons, Nat.succ_mul] at ih ⊢
          rw [ih]; omega
  rw [hsum]
  refine ⟨Nat.mul_div_le _ _, ?_⟩
  intro hne
  have hpos : 0 < (workersToReward t).length := List.length_pos_iff.mpr hne
  have := Nat.div_add_mod t.params.rewards (workersToReward t).length
  have := Nat.mod_lt t.params.rewards hpos
  omega

/-- C41: recording a worker twice for an event can cost it its reward: worker 23 took part in both
events of the epoch, but was recorded three times. -/
theorem C41_recorded_twice_forfeits : ∃ t : Tally, t.participation.get? 23 = some 3 ∧
    t.eventCount = 2 ∧ (stateAfter exCfg exParams 5 exCalls).tallies (7, 0) = some t ∧
    23 ∉ workersToReward t ∧ 22 ∈ workersToReward t := by
  refine ⟨⟨2, [(21, 2), (22, 1), (23, 3)], ⟨0, 5⟩, exParams⟩, by decide, rfl, by rfl, by decide, by decide⟩

example : rewardsByWorker ⟨2, [(21, 2), (22, 1), (23, 3)], ⟨0, 5⟩, exParams⟩ = [(21, 50), (22, 50)] ∧
    OMap.Sorted ([(21, 2), (22, 1), (23, 3)] : OMap Addr Nat) := by
  refine ⟨by decide, ?_⟩
  simp [OMap.Sorted]

/-! ### what a step does -/

theorem done_set (s : State) (k k' : Addr) (w : Nat) (p : OMap Addr Nat) :
    done { s with pools := p, watermarks := s.watermarks.set k w } k' =
      if k' = k then w + 1 else done s k' := by
  unfold done
  simp only [KV.set_apply]
  by_cases h : k' = k
  · simp [h]
  · simp [h]

/-- the pieces of state that a call may change -/
theorem step_frame {s s' : State} (hi : Inv s) {c : Call} {r : Resp} (hx : exec s c = .ok (s', r)) :
    s'.config = s.config ∧
    ((∀ p, c.msg ≠ .updateParams p) → s'.params = s.params ∧ s'.lastUpdated = s.lastUpdated) ∧
    ((∀ ev w, c.msg ≠ .recordParticipation ev w) → s'.tallies = s.tallies ∧ s'.events = s.events) ∧
    ((∀ k n, c.msg ≠ .distributeRewards k n) → s'.watermarks = s.watermarks ∧ r = {}) ∧
    ((∀ k n, c.msg ≠ .distributeRewards k n) → (∀ k, c.msg ≠ .addRewards k) →
      s'.pools = s.pools) := by
  unfold exec at hx
  cases hm : c.msg with
  | recordParticipation ev w =>
    rw [hm] at hx
    obtain ⟨cur, e, t, t2, _, hr, _, _, _, _, _, h8⟩ := record_ok hx
    rw [h8]
    exact ⟨rfl, fun _ => ⟨rfl, rfl⟩, fun h => absurd rfl (h ev w), fun _ => ⟨rfl, hr⟩, fun _ _ => rfl⟩
  | addRewards k =>
    rw [hm] at hx
    obtain ⟨x, _, _, _, hr, rfl⟩ := add_ok.mp hx
    exact ⟨rfl, fun _ => ⟨rfl, rfl⟩, fun _ => ⟨rfl, rfl⟩, fun _ => ⟨rfl, hr⟩,
      fun _ h => absurd rfl (h k)⟩
  | distributeRewards k n =>
    rw [hm] at hx
    obtain ⟨cur, m, upto, _, _, _, _, _, _, _, _, rfl⟩ := (distribute_ok hi).mp hx
    exact ⟨rfl, fun _ => ⟨rfl, rfl⟩, fun _ => ⟨rfl, rfl⟩, fun h => absurd rfl (h k n),
      fun h _ => absurd rfl (h k n)⟩
  | updateParams p =>
    rw [hm] at hx
    obtain ⟨_, hr, cur, _, ⟨_, rfl⟩ | ⟨_, rfl⟩⟩ := update_ok hx
    · exact ⟨rfl, fun h => absurd rfl (h p), fun _ => ⟨rfl, rfl⟩, fun _ => ⟨rfl, hr⟩, fun _ _ => rfl⟩
    · exact ⟨rfl, fun h => absurd rfl (h p), fun _ => ⟨rfl, rfl⟩, fun _ => ⟨rfl, hr⟩, fun _ _ => rfl⟩

theorem done_step {s s' : State} (hi : Inv s) {c : Call} {r : Resp} (hx : exec s c = .ok (s', r))
    (k : Addr) (hne : ∀ n, c.msg ≠ .distributeRewards k n) : done s' k = done s k := by
  by_cases h : ∃ k' n, c.msg = .distributeRewards k' n
  · obtain ⟨k', n, hm⟩ := h
    simp only [exec, hm] at hx
    obtain ⟨cur, m, upto, _, _, _, _, _, _, _, _, rfl⟩ := (distribute_ok hi).mp hx
    rw [done_set, if_neg]
    rintro rfl
    exact hne n hm
  · have := ((step_frame hi hx).2.2.2.1 (fun k' n hm => h ⟨k', n, hm⟩)).1
    unfold done
    rw [this]

/-- what a successful distribution does, in the vocabulary of the specification -/
theorem distribution {s s' : State} (hi : Inv s) {c : Call} {r : Resp} {k : Addr} {n : Option Nat}
    (hx : exec s c = .ok (s', r)) (hm : c.msg = .distributeRewards k n) :
    ∃ e, epochNum s c.height = some e ∧ 2 ≤ e ∧
      done s' k = min (max (done s k + limitOf n) 1) (e - 1) ∧ done s k < done s' k ∧
      (∀ a, paidTo r a =
        ((List.range' (done s k) (done s' k - done s k)).map (due s k a)).sum) ∧
      paidOut r = ((List.range' (done s k) (done s' k - done s k)).map (dueTotal s k)).sum ∧
      poolOf s k = poolOf s' k + paidOut r ∧ (∀ k', k' ≠ k → poolOf s' k' = poolOf s k') ∧
      (r.sends.map Prod.fst).Pairwise (· < ·) ∧ (∀ x ∈ r.sends, x.2.1 = s.config.denom) ∧
      totalPools s = totalPools s' + paidOut r := by
  simp only [exec, hm] at hx
  obtain ⟨cur, m, upto, h1, h2, h3, h4, h5, h6, h7, h8, h9⟩ := (distribute_ok hi).mp hx
  have hd' : done s' k = upto + 1 := by rw [h9, done_set, if_pos rfl]
  have hw : upto + 1 = min (max (done s k + limitOf n) 1) (cur.num - 1) := by
    rw [h4]; unfold toEpoch; omega
  obtain ⟨g1, g2, g3⟩ := cumulate_ok hi k _ OMap.sorted_nil h6
  have hpt : ∀ a, paidTo r a = amt m a := by
    intro a
    rw [h8]
    unfold paidTo
    simp only [List.map_map]
    clear g2 g3 h6 h7 h8 h9 hx
    unfold amt
    induction m with
    | nil => simp
    | cons e t ih =>
      obtain ⟨b, v⟩ := e
      have hlt := g1.head_lt
      simp only [List.map_cons, List.sum_cons, Function.comp, OMap.get?_cons]
      have ih := ih g1.tail
      rw [ih]
      by_cases hab : b = a
      · subst hab
        rw [OMap.get?_none_of_lt hlt]
        simp
      · rw [if_neg hab, if_neg (Ne.symm hab)]
        simp
  have hpo : paidOut r = sumRewards m := by
    rw [h8]
    unfold paidOut sumRewards OMap.sumBy
    simp [Function.comp_def]
  have hsp : s'.pools = s.pools.set k (poolOf s k - sumRewards m) := by rw [h9]
  refine ⟨cur.num, epochNum_some.mpr ⟨cur, h1, rfl⟩, h3, by rw [hd', hw], by rw [hd']; omega, ?_, ?_,
    ?_, ?_, ?_, ?_, ?_⟩
  · intro a
    rw [hpt, g2, hd']
    simp [amt]
  · rw [hpo, g3, hd']
    simp [sumRewards]
  · rw [hpo, poolOf_eq s', hsp, amt_set, if_pos rfl]; omega
  · intro k' hk'
    rw [poolOf_eq s', hsp, amt_set, if_neg hk']; rfl
  · rw [h8]
    simp only [List.map_map]
    exact OMap.keys_sorted g1
  · rw [h8]
    intro x hx'
    obtain ⟨e, _, rfl⟩ := List.mem_map.mp hx'
    rfl
  · have h := sumRewards_set hi.pools k (poolOf s k - sumRewards m)
    rw [← poolOf_eq] at h
    unfold totalPools
    rw [hsp, hpo]
    unfold sumRewards at h h7 ⊢
    omega

/-! ### C38 -/

/-- C38: over any history the epochs paid out from a pool, listed in the order in which they are paid,
are `0, 1, 2, ...`: consecutive, starting at zero, none twice. -/
theorem C38_consecutive (cfg : Config) (p : Params) (h : Nat) (cs : List Call) (k : Addr) :
    (trace cfg p h cs).flatMap (epochsPaid k) = List.range (done (stateAfter cfg p h cs) k) := by
  have key := steps_inv exec (P := fun log s => Inv s ∧
    log.flatMap (epochsPaid k) = List.range (done s k)) (init cfg p h)
    ⟨inv_init cfg p h, rfl⟩ ?_ cs
  · exact key.2
  rintro log s c s' r ⟨hi, hp⟩ hx
  refine ⟨inv_step hi hx, ?_⟩
  rw [List.flatMap_append, hp]
  simp only [List.flatMap_cons, List.flatMap_nil, List.append_nil, epochsPaid]
  have hle : done s k ≤ done s' k := by
    by_cases hm : ∃ n, c.msg = .distributeRewards k n
    · obtain ⟨n, hm⟩ := hm
      obtain ⟨_, _, _, _, h, _⟩ := distribution hi hx hm
      omega
    · rw [done_step hi hx k (fun n hn => hm ⟨n, hn⟩)]
  rw [List.range_eq_range', List.range_eq_range']
  have := List.range'_append_1 (s := 0) (m := done s k) (n := done s' k - done s k)
  simp only [Nat.zero_add] at this
  rw [this]
  congr 1
  omega

/-- C38: no epoch of a pool is paid twice. -/
theorem C38_at_most_once (cfg : Config) (p : Params) (h : Nat) (cs : List Call) (k : Addr) :
    ((trace cfg p h cs).flatMap (epochsPaid k)).Nodup := by
  rw [C38_consecutive]; exact List.nodup_range

/-- C38: what a step pays.  Transfers are made by distributions only.  A distribution for pool `k` pays
every worker exactly what it is due for the epochs paid out, in one transfer; it pays at least one epoch,
and every epoch it pays lies at least two epochs before the current one. -/
theorem C38_payment (cfg : Config) (p : Params) (h : Nat) (cs : List Call)
    (st : Step State Call Resp) (hst : st ∈ trace cfg p h cs) :
    (st.resp.sends ≠ [] → ∃ k n, st.call.msg = .distributeRewards k n) ∧
    (∀ k, epochsPaid k st ≠ [] ↔ ∃ n, st.call.msg = .distributeRewards k n) ∧
    (∀ k n, st.call.msg = .distributeRewards k n →
      (∀ a, paidTo st.resp a = ((epochsPaid k st).map (due st.pre k a)).sum) ∧
      (st.resp.sends.map Prod.fst).Nodup ∧ (∀ x ∈ st.resp.sends, x.2.1 = cfg.denom) ∧
      (∃ cur, epochNum st.pre st.call.height = some cur ∧ ∀ e ∈ epochsPaid k st, e + 2 ≤ cur)) := by
  obtain ⟨⟨cs₁, cs₂, _, hpre⟩, hx⟩ := steps_mem exec hst
  have hi : Inv st.pre := by rw [hpre]; exact inv_reachable cfg p h cs₁
  have hcfg : st.pre.config = cfg := by
    rw [hpre]
    have := runCalls_inv exec (P := fun s => Inv s ∧ s.config = cfg)
      (fun _ _ _ _ hi hx => ⟨inv_step hi.1 hx, by rw [(step_frame hi.1 hx).1, hi.2]⟩) _
      ⟨inv_init cfg p h, rfl⟩ cs₁
    exact this.2
  refine ⟨?_, ?_, ?_⟩
  · intro hs
    by_contra hn
    have := ((step_frame hi hx).2.2.2.1 (fun k n hm => hn ⟨k, n, hm⟩)).2
    rw [this] at hs
    exact hs rfl
  · intro k
    constructor
    · intro hs
      by_contra hn
      apply hs
      unfold epochsPaid
      rw [done_step hi hx k (fun n hm => hn ⟨n, hm⟩)]
      simp
    · rintro ⟨n, hm⟩
      obtain ⟨_, _, _, _, hlt, _⟩ := distribution hi hx hm
      unfold epochsPaid
      intro h0
      have := congrArg List.length h0
      simp only [List.length_range', List.length_nil] at this
      omega
  · intro k n hm
    obtain ⟨e, h1, h2, h3, h4, h5, _, _, _, h9, h10, _⟩ := distribution hi hx hm
    refine ⟨h5, h9.imp (fun hlt => ne_of_lt hlt), by rw [← hcfg]; exact h10, e, h1, ?_⟩
    intro x hx'
    unfold epochsPaid at hx'
    rw [List.mem_range'_1] at hx'
    omega

/-- C38: how far a distribution gets: at most the requested number of epochs (ten
by default; at least one for a fresh
pool, even if zero were requested), but never beyond the epoch two before the current one.  It succeeds
exactly if there is an epoch to pay and the pool can pay them all. -/
theorem C38_extent (cfg : Config) (p : Params) (h : Nat) (cs : List Call) (c : Call) (k : Addr)
    (n : Option Nat) (hm : c.msg = .distributeRewards k n) (e : Nat)
    (he : epochNum (stateAfter cfg p h cs) c.height = some e)
    (hov : done (stateAfter cfg p h cs) k + n.getD 10 ≤ u64Max) (target : Nat)
    (ht : target = min (max (done (stateAfter cfg p h cs) k + n.getD 10) 1) (e - 1)) :
    ((∃ s' r, exec (stateAfter cfg p h cs) c = .ok (s', r)) ↔
      2 ≤ e ∧ done (stateAfter cfg p h cs) k < target ∧
      ((List.range' (done (stateAfter cfg p h cs) k)
        (target - done (stateAfter cfg p h cs) k)).map (dueTotal (stateAfter cfg p h cs) k)).sum ≤
        poolOf (stateAfter cfg p h cs) k) ∧
    (∀ s' r, exec (stateAfter cfg p h cs) c = .ok (s', r) → done s' k = target) := by
  have hlim : n.getD 10 = limitOf n := by cases n <;> rfl
  rw [hlim] at hov ht
  have hi := inv_reachable cfg p h cs
  revert he hov hi ht
  generalize stateAfter cfg p h cs = s
  intro he hov ht hi
  refine ⟨⟨?_, ?_⟩, ?_⟩
  · rintro ⟨s', r, hx⟩
    obtain ⟨e', h1, h2, h3, h4, _, h6, h7, _⟩ := distribution hi hx hm
    rw [he] at h1
    simp only [Option.some.injEq] at h1
    subst h1
    rw [← ht] at h3
    rw [h3] at h4 h6
    refine ⟨h2, h4, ?_⟩
    rw [← h6]
    omega
  · rintro ⟨h2, h4, hle⟩
    obtain ⟨cur, hcur, rfl⟩ := epochNum_some.mp he
    have hup : toEpoch (done s k) (limitOf n) cur.num + 1 = target := by
      rw [ht]; unfold toEpoch; omega
    have hlen : target - done s k = toEpoch (done s k) (limitOf n) cur.num + 1 - done s k := by
      rw [hup]
    rw [hlen] at hle
    obtain ⟨m, hmm⟩ := cumulate_exists hi k (toEpoch (done s k) (limitOf n) cur.num + 1 - done s k)
      (acc := []) (fr := done s k) OMap.sorted_nil
      (by simp only [sumRewards, OMap.sumBy_nil, Nat.zero_add]; exact Nat.le_trans hle (hi.poolMax k))
    obtain ⟨_, _, g3⟩ := cumulate_ok hi k _ OMap.sorted_nil hmm
    refine ⟨{ s with pools := s.pools.set k (poolOf s k - sumRewards m),
                     watermarks := s.watermarks.set k (toEpoch (done s k) (limitOf n) cur.num) },
      { sends := m.map (fun e => (e.1, (s.config.denom, e.2))) }, ?_⟩
    · simp only [exec, hm]
      refine (distribute_ok hi).mpr ⟨cur, m, _, hcur, hov, h2, rfl, by omega, hmm, ?_, rfl, rfl⟩
      rw [g3]
      simpa [sumRewards] using hle
  · intro s' r hx
    obtain ⟨e', h1, h2, h3, _⟩ := distribution hi hx hm
    rw [he] at h1
    simp only [Option.some.injEq] at h1
    subst h1
    rw [h3, ht]

example : (trace exCfg exParams 5 exCalls).flatMap (epochsPaid 7) = [0] ∧
    ((trace exCfg exParams 5 exCalls).map (fun st => st.resp.sends)).flatten =
      [(21, ("axl".toList, 50)), (22, ("axl".toList, 50))] := by decide

/-- C40: what an epoch pays in total, summed over the workers, is at most its rewards. -/
theorem C40_epoch_total (t : Tally) : epochTotal t ≤ t.params.rewards := by
  have hsum : ∀ l : List Addr, (l.map (share t)).sum =
      (l.filter (eligible t)).length * (t.params.rewards / eligibleNum t) := by
    intro l
    induction l with
    | nil => simp
    | cons a l ih =>
      rw [List.map_cons, List.sum_cons, ih, List.filter_cons]
      by_cases h : eligible t a = true
      · rw [if_pos h, List.length_cons, Nat.succ_mul, share, if_pos h]; omega
      · rw [if_neg h, share, if_neg h]; omega
  unfold epochTotal
  rw [hsum]
  exact Nat.mul_div_le _ _

/-- C40: a distribution pays at most the rewards per epoch, as recorded with each epoch, of the epochs
it pays out; an epoch without events costs nothing. -/
theorem C40_distribution (cfg : Config) (p : Params) (h : Nat) (cs : List Call)
    (st : Step State Call Resp) (hst : st ∈ trace cfg p h cs) (k : Addr) (n : Option Nat)
    (hm : st.call.msg = .distributeRewards k n) :
    paidOut st.resp ≤ ((epochsPaid k st).map (fun e => match st.pre.tallies (k, e) with
      | none => 0
      | some t => t.params.rewards)).sum := by
  obtain ⟨⟨cs₁, cs₂, _, hpre⟩, hx⟩ := steps_mem exec hst
  have hi : Inv st.pre := by rw [hpre]; exact inv_reachable cfg p h cs₁
  obtain ⟨e, _, _, _, _, _, h6, _⟩ := distribution hi hx hm
  rw [h6]
  unfold epochsPaid
  generalize List.range' (done st.pre k) (done st.post k - done st.pre k) = l
  induction l with
  | nil => simp
  | cons a l ih =>
    simp only [List.map_cons, List.sum_cons]
    have : dueTotal st.pre k a ≤ match st.pre.tallies (k, a) with
      | none => 0
      | some t => t.params.rewards := by
      unfold dueTotal
      cases st.pre.tallies (k, a) with
      | none => simp
      | some t => exact C40_epoch_total t
    omega

/-! ### C39 -/

theorem amountOf_single (d : Str) (x : Nat) : amountOf d [(d, x)] = x := by simp [amountOf]

theorem amountOf_sends {d : Str} {l : List (Addr × Coin)} (h : ∀ x ∈ l, x.2.1 = d) :
    amountOf d (l.map Prod.snd) = (l.map (fun p => p.2.2)).sum := by
  unfold amountOf
  rw [List.map_map]
  congr 1
  apply List.map_congr_left
  intro x hx
  simp [h x hx]

/-- C39: for every pool, balance plus everything ever paid from it is everything ever deposited. -/
theorem C39_pool_ledger (cfg : Config) (p : Params) (h : Nat) (cs : List Call) (k : Addr) :
    poolOf (stateAfter cfg p h cs) k + payouts k (trace cfg p h cs) =
      deposits cfg.denom k (trace cfg p h cs) := by
  have key := steps_inv exec (P := fun log s => Inv s ∧ s.config = cfg ∧
    poolOf s k + payouts k log = deposits cfg.denom k log) (init cfg p h)
    ⟨inv_init cfg p h, rfl, rfl⟩ ?_ cs
  · exact key.2.2
  rintro log s c s' r ⟨hi, hc, hp⟩ hx
  refine ⟨inv_step hi hx, by rw [(step_frame hi hx).1, hc], ?_⟩
  simp only [payouts, deposits, List.map_append, List.map_cons, List.map_nil, List.sum_append,
    List.sum_cons, List.sum_nil, Nat.add_zero] at hp ⊢
  cases hm : c.msg with
  | addRewards k' =>
    have hx' := hx
    simp only [exec, hm] at hx'
    obtain ⟨x, h1, h2, _, h4, h5⟩ := add_ok.mp hx'
    simp only [payoutOf, depositOf, hm, Msg.addRewards.injEq, Nat.add_zero]
    rw [poolOf_eq, h5]
    simp only [amt_set]
    by_cases hk : k = k'
    · subst hk
      rw [if_pos rfl, if_pos rfl, h1, hc, amountOf_single]
      omega
    · rw [if_neg hk, if_neg (Ne.symm hk), ← poolOf_eq]
      omega
  | distributeRewards k' n =>
    obtain ⟨e, _, _, _, _, _, _, h7, h8, _⟩ := distribution hi hx hm
    simp only [payoutOf, depositOf, hm, reduceCtorEq, if_false, Nat.add_zero]
    by_cases hk : k = k'
    · subst hk
      rw [if_pos rfl]
      omega
    · rw [h8 k hk, if_neg (Ne.symm hk)]
      omega
  | recordParticipation ev w =>
    have := (step_frame hi hx).2.2.2.2 (by simp [hm]) (by simp [hm])
    simp only [payoutOf, depositOf, hm, reduceCtorEq, if_false, Nat.add_zero]
    rw [poolOf_eq, this, ← poolOf_eq]
    exact hp
  | updateParams q =>
    have := (step_frame hi hx).2.2.2.2 (by simp [hm]) (by simp [hm])
    simp only [payoutOf, depositOf, hm, reduceCtorEq, if_false, Nat.add_zero]
    rw [poolOf_eq, this, ← poolOf_eq]
    exact hp

/-- C39: a distribution takes from its pool exactly what it pays, never more than the pool has, and
touches no other pool. -/
theorem C39_distribution (cfg : Config) (p : Params) (h : Nat) (cs : List Call) (c : Call) (k : Addr)
    (n : Option Nat) (hm : c.msg = .distributeRewards k n) {s' : State} {r : Resp}
    (hx : exec (stateAfter cfg p h cs) c = .ok (s', r)) :
    paidOut r ≤ poolOf (stateAfter cfg p h cs) k ∧
    poolOf s' k = poolOf (stateAfter cfg p h cs) k - paidOut r ∧
    (∀ k', k' ≠ k → poolOf s' k' = poolOf (stateAfter cfg p h cs) k') := by
  obtain ⟨e, _, _, _, _, _, _, h7, h8, _⟩ := distribution (inv_reachable cfg p h cs) hx hm
  exact ⟨by omega, by omega, h8⟩

/-- C39: all pools together are backed by coins the contract received and did not send. -/
theorem C39_solvent (cfg : Config) (p : Params) (h : Nat) (cs : List Call) :
    totalPools (stateAfter cfg p h cs) + sent cfg.denom (trace cfg p h cs) ≤
      received cfg.denom (trace cfg p h cs) := by
  have key := steps_inv exec (P := fun log s => Inv s ∧ s.config = cfg ∧
    totalPools s + sent cfg.denom log ≤ received cfg.denom log) (init cfg p h)
    ⟨inv_init cfg p h, rfl, by simp [totalPools, init, sent, received]⟩ ?_ cs
  · exact key.2.2
  rintro log s c s' r ⟨hi, hc, hp⟩ hx
  refine ⟨inv_step hi hx, by rw [(step_frame hi hx).1, hc], ?_⟩
  simp only [sent, received, List.map_append, List.map_cons, List.map_nil, List.sum_append,
    List.sum_cons, List.sum_nil, Nat.add_zero] at hp ⊢
  have h0 : amountOf cfg.denom (List.map Prod.snd ({} : Resp).sends) = 0 := rfl
  cases hm : c.msg with
  | addRewards k' =>
    have hx' := hx
    simp only [exec, hm] at hx'
    obtain ⟨x, h1, h2, _, h4, h5⟩ := add_ok.mp hx'
    have hset := sumRewards_set hi.pools k' (poolOf s k' + x)
    rw [← poolOf_eq] at hset
    have ht : totalPools s' = totalPools s + x := by
      unfold totalPools
      rw [h5]
      simp only [sumRewards] at hset ⊢
      omega
    rw [h4, h0, ht, h1, hc, amountOf_single]
    omega
  | distributeRewards k' n =>
    obtain ⟨e, _, _, _, _, _, _, _, _, _, h10, h11⟩ := distribution hi hx hm
    rw [amountOf_sends (by rw [← hc]; exact h10)]
    unfold paidOut at h11
    omega
  | recordParticipation ev w =>
    have h1 := (step_frame hi hx).2.2.2.2 (by simp [hm]) (by simp [hm])
    have h2 := ((step_frame hi hx).2.2.2.1 (by simp [hm])).2
    rw [h2, h0]
    unfold totalPools at *
    rw [h1]
    omega
  | updateParams q =>
    have h1 := (step_frame hi hx).2.2.2.2 (by simp [hm]) (by simp [hm])
    have h2 := ((step_frame hi hx).2.2.2.1 (by simp [hm])).2
    rw [h2, h0]
    unfold totalPools at *
    rw [h1]
    omega

example : poolOf (stateAfter exCfg exParams 5 exCalls) 7 = 400 ∧
    deposits "axl".toList 7 (trace exCfg exParams 5 exCalls) = 500 ∧
    payouts 7 (trace exCfg exParams 5 exCalls) = 100 := by decide

/-! ### C42 -/

theorem homeEpoch_snoc (rs : List (Str × Addr × Nat)) (x : Str × Addr × Nat) (ev : Str) :
    homeEpoch (rs ++ [x]) ev =
      match homeEpoch rs ev with
      | some e => some e
      | none => if x.1 = ev then some x.2.2 else none := by
  unfold homeEpoch
  rw [List.find?_append]
  cases rs.find? (fun r => r.1 = ev) with
  | some r => rfl
  | none =>
    simp only [Option.none_or, List.find?_cons, List.find?_nil]
    by_cases h : x.1 = ev
    · simp [h]
    · simp [h]

theorem homeEpoch_none {rs : List (Str × Addr × Nat)} {ev : Str} :
    homeEpoch rs ev = none ↔ ev ∉ rs.map (·.1) := by
  unfold homeEpoch
  simp only [Option.map_eq_none_iff, List.find?_eq_none, decide_eq_true_eq, List.mem_map, not_exists,
    not_and]

theorem mem_distinct (l : List Str) (x : Str) : x ∈ distinct l ↔ x ∈ l := by
  suffices H : ∀ (l acc : List Str), x ∈ l.foldl (fun acc x => if x ∈ acc then acc else acc ++ [x]) acc ↔
      x ∈ acc ∨ x ∈ l by simpa [distinct] using H l []
  intro l
  induction l with
  | nil => intro acc; simp
  | cons y l ih =>
    intro acc
    rw [List.foldl_cons, ih]
    by_cases h : y ∈ acc
    · rw [if_pos h]
      simp only [List.mem_cons]
      constructor
      · rintro (h1 | h1)
        · exact Or.inl h1
        · exact Or.inr (Or.inr h1)
      · rintro (h1 | rfl | h1)
        · exact Or.inl h1
        · exact Or.inl h
        · exact Or.inr h1
    · rw [if_neg h]
      simp only [List.mem_append, List.mem_cons, List.not_mem_nil, or_assoc, false_or]

theorem distinct_snoc (l : List Str) (x : Str) :
    distinct (l ++ [x]) = if x ∈ l then distinct l else distinct l ++ [x] := by
  have : distinct (l ++ [x]) = if x ∈ distinct l then distinct l else distinct l ++ [x] := by
    unfold distinct
    rw [List.foldl_append]
    rfl
  rw [this]
  by_cases h : x ∈ l
  · rw [if_pos h, if_pos ((mem_distinct l x).mpr h)]
  · rw [if_neg h, if_neg (fun hh => h ((mem_distinct l x).mp hh))]

theorem eventsIn_snoc (rs : List (Str × Addr × Nat)) (x : Str × Addr × Nat) (e : Nat) :
    eventsIn (rs ++ [x]) e = match homeEpoch rs x.1 with
      | some _ => eventsIn rs e
      | none => if x.2.2 = e then eventsIn rs e ++ [x.1] else eventsIn rs e := by
  unfold eventsIn
  rw [List.map_append, List.map_cons, List.map_nil, distinct_snoc]
  cases hh : homeEpoch rs x.1 with
  | some e0 =>
    have hmem : x.1 ∈ rs.map (·.1) := by
      by_contra hn
      rw [homeEpoch_none.mpr hn] at hh
      simp at hh
    rw [if_pos hmem]
    apply List.filter_congr
    intro ev _
    rw [homeEpoch_snoc]
    cases h2 : homeEpoch rs ev with
    | some e1 => rfl
    | none =>
      have : x.1 ≠ ev := by rintro rfl; rw [hh] at h2; simp at h2
      simp [this]
  | none =>
    rw [if_neg (homeEpoch_none.mp hh), List.filter_append]
    have h1 : (distinct (rs.map (·.1))).filter (fun ev => homeEpoch (rs ++ [x]) ev = some e) =
        (distinct (rs.map (·.1))).filter (fun ev => homeEpoch rs ev = some e) := by
      apply List.filter_congr
      intro ev hev
      rw [homeEpoch_snoc]
      cases h2 : homeEpoch rs ev with
      | some e1 => rfl
      | none => exact absurd ((mem_distinct _ _).mp hev) (homeEpoch_none.mp h2)
    have h2 : homeEpoch (rs ++ [x]) x.1 = some x.2.2 := by rw [homeEpoch_snoc, hh]; simp
    rw [h1, List.filter_cons, h2]
    by_cases h3 : x.2.2 = e
    · simp [h3]
    · simp [h3]

theorem recordsIn_snoc (rs : List (Str × Addr × Nat)) (x : Str × Addr × Nat) (e : Nat) (a : Addr) :
    recordsIn (rs ++ [x]) e a =
      recordsIn rs e a + if x.2.1 = a ∧ homeEpoch (rs ++ [x]) x.1 = some e then 1 else 0 := by
  unfold recordsIn
  rw [List.filter_append, List.length_append]
  have h1 : rs.filter (fun r => decide (r.2.1 = a ∧ homeEpoch (rs ++ [x]) r.1 = some e)) =
      rs.filter (fun r => decide (r.2.1 = a ∧ homeEpoch rs r.1 = some e)) := by
    apply List.filter_congr
    intro r hr
    have : homeEpoch (rs ++ [x]) r.1 = homeEpoch rs r.1 := by
      rw [homeEpoch_snoc]
      cases h2 : homeEpoch rs r.1 with
      | some e1 => rfl
      | none => exact absurd (List.mem_map.mpr ⟨r, hr, rfl⟩) (homeEpoch_none.mp h2)
    rw [this]
  rw [h1]
  congr 1
  rw [List.filter_cons]
  split <;> rename_i h <;> simp only [decide_eq_true_eq] at h <;> simp [h]

theorem recordsIn_empty {rs : List (Str × Addr × Nat)} {e : Nat} (h : eventsIn rs e = []) (a : Addr) :
    recordsIn rs e a = 0 := by
  unfold recordsIn
  rw [List.length_eq_zero_iff, List.filter_eq_nil_iff]
  intro r hr hh
  simp only [decide_eq_true_eq] at hh
  have : r.1 ∈ eventsIn rs e := by
    unfold eventsIn
    refine List.mem_filter.mpr ⟨(mem_distinct _ _).mpr (List.mem_map.mpr ⟨r, hr, rfl⟩), ?_⟩
    simpa using hh.2
  rw [h] at this
  simp at this

/-- the state of the tallies and events of contract `k` agrees with the history -/
structure Agrees (k : Addr) (log : List (Step State Call Resp)) (s : State) : Prop where
  home : ∀ ev, s.events (ev, k) = homeEpoch (records k log) ev
  empty : ∀ e, s.tallies (k, e) = none → eventsIn (records k log) e = []
  tally : ∀ e t, s.tallies (k, e) = some t →
    t.eventCount = (eventsIn (records k log) e).length ∧ eventsIn (records k log) e ≠ [] ∧
    (∀ a, amt t.participation a = recordsIn (records k log) e a) ∧
    (∀ a v, t.participation.get? a = some v → 0 < v) ∧
    ∃ l₁ st l₂ ev w, log = l₁ ++ st :: l₂ ∧ recordOf k st = some (ev, w, e) ∧
      homeEpoch (records k l₁) ev = none ∧ eventsIn (records k l₁) e = [] ∧
      t.params = st.pre.params

theorem agrees (cfg : Config) (p : Params) (h : Nat) (cs : List Call) (k : Addr) :
    Agrees k (trace cfg p h cs) (stateAfter cfg p h cs) := by
  have key := steps_inv exec (P := fun log s => Inv s ∧ Agrees k log s) (init cfg p h)
    ⟨inv_init cfg p h, fun _ => rfl, fun _ _ => rfl, fun e t ht => by simp [init] at ht⟩ ?_ cs
  · exact key.2
  rintro log s c s' r ⟨hi, ha⟩ hx
  refine ⟨inv_step hi hx, ?_⟩
  have same : recordOf k ⟨s, c, r, s'⟩ = none → (∀ ev, s'.events (ev, k) = s.events (ev, k)) →
      (∀ e, s'.tallies (k, e) = s.tallies (k, e)) → Agrees k (log ++ [⟨s, c, r, s'⟩]) s' := by
    intro h1 h2 h3
    have hrec : records k (log ++ [⟨s, c, r, s'⟩]) = records k log := by
      simp [records, List.filterMap_append, h1]
    refine ⟨?_, ?_, ?_⟩
    · intro ev; rw [hrec, h2]; exact ha.home ev
    · intro e he; rw [hrec]; rw [h3] at he; exact ha.empty e he
    · intro e t ht
      rw [h3] at ht
      rw [hrec]
      obtain ⟨g1, g2, g3, g4, l₁, st, l₂, ev, w, g5, g6, g7, g8, g9⟩ := ha.tally e t ht
      exact ⟨g1, g2, g3, g4, l₁, st, l₂ ++ [⟨s, c, r, s'⟩], ev, w, by rw [g5]; simp, g6, g7, g8, g9⟩
  by_cases hm : ∃ ev w, c.msg = .recordParticipation ev w
  · obtain ⟨ev, w, hm⟩ := hm
    have hx' := hx
    simp only [exec, hm] at hx'
    obtain ⟨cur, e, t, t2, h1, h2, h3, h4, h5, h6, h7, h8⟩ := record_ok hx'
    have hte : t.epoch.num = e := by
      cases ht : s.tallies (c.sender, e) with
      | some t' => rw [ht] at h3; subst h3; exact hi.key _ _ _ ht
      | none =>
        rw [ht] at h3
        rcases h4 with ⟨_, h4, _⟩ | ⟨h4, _⟩
        · subst h3; exact h4.symm
        · obtain ⟨t', ht'⟩ := hi.event _ _ _ h4
          rw [ht] at ht'; simp at ht'
    have htal : s'.tallies = s.tallies.set (c.sender, e) t2 := by rw [h8, hte]
    by_cases hk : c.sender = k
    · subst hk
      have hro : recordOf c.sender ⟨s, c, r, s'⟩ = some (ev, w, cur.num) := by
        have : epochNum s c.height = some cur.num := epochNum_some.mpr ⟨cur, h1, rfl⟩
        simp only [recordOf, hm, if_true, this]
      have hrec : records c.sender (log ++ [⟨s, c, r, s'⟩]) =
          records c.sender log ++ [(ev, w, cur.num)] := by
        simp [records, List.filterMap_append, hro]
      have hhome : homeEpoch (records c.sender log ++ [(ev, w, cur.num)]) ev = some e := by
        rw [homeEpoch_snoc, ← ha.home]
        rcases h4 with ⟨g1, g2, _⟩ | ⟨g1, _⟩
        · rw [g1, g2]; simp
        · rw [g1]
      refine ⟨?_, ?_, ?_⟩
      · intro ev'
        rw [hrec, homeEpoch_snoc, ← ha.home]
        rcases h4 with ⟨g1, g2, g3, _⟩ | ⟨g1, g2, _⟩
        · rw [g3, KV.set_apply]
          by_cases hev : ev' = ev
          · subst hev; rw [g1]; simp
          · rw [if_neg (by simp [hev])]
            cases s.events (ev', c.sender) with
            | some _ => rfl
            | none => simp [Ne.symm hev]
        · rw [g2]
          by_cases hev : ev' = ev
          · subst hev; rw [g1]
          · cases s.events (ev', c.sender) with
            | some _ => rfl
            | none => simp [Ne.symm hev]
      · intro e' he'
        rw [htal, KV.set_apply] at he'
        split at he'
        · simp at he'
        rename_i hne
        have hne : e' ≠ e := fun h => hne (by rw [h])
        rw [hrec, eventsIn_snoc, ← ha.home]
        have := ha.empty e' he'
        rcases h4 with ⟨g1, g2, _⟩ | ⟨g1, _⟩
        · simp only [g1]
          rw [if_neg (by rw [← g2]; exact Ne.symm hne)]
          exact this
        · simp only [g1]; exact this
      · intro e' t' ht'
        rw [hrec]
        rw [htal, KV.set_apply] at ht'
        by_cases hee : e' = e
        · subst hee
          rw [if_pos rfl] at ht'
          simp only [Option.some.injEq] at ht'
          subst ht'
          -- counts of the tally before
          have hcount : ∀ a, amt t.participation a = recordsIn (records c.sender log) e' a := by
            cases ht : s.tallies (c.sender, e') with
            | some t0 => rw [ht] at h3; subst h3; exact (ha.tally e' _ ht).2.2.1
            | none =>
              rw [ht] at h3
              subst h3
              intro a
              rw [recordsIn_empty (ha.empty e' ht)]
              rfl
          have hpos : ∀ a v, t.participation.get? a = some v → 0 < v := by
            cases ht : s.tallies (c.sender, e') with
            | some t0 => rw [ht] at h3; subst h3; exact (ha.tally e' _ ht).2.2.2.1
            | none => rw [ht] at h3; subst h3; intro a v hv; simp at hv
          have hev : t.eventCount = (eventsIn (records c.sender log) e').length := by
            cases ht : s.tallies (c.sender, e') with
            | some t0 => rw [ht] at h3; subst h3; exact (ha.tally e' _ ht).1
            | none => rw [ht] at h3; subst h3; rw [ha.empty e' ht]; rfl
          have hpar : (∀ a, amt t2.participation a =
              recordsIn (records c.sender log ++ [(ev, w, cur.num)]) e' a) := by
            intro a
            rw [recordsIn_snoc, hhome, h5, amt_set, hcount, hcount]
            by_cases haw : a = w
            · subst haw; simp
            · simp [haw, Ne.symm haw]
          have hpos2 : ∀ a v, t2.participation.get? a = some v → 0 < v := by
            intro a v hv
            rw [h5, OMap.get?_set] at hv
            split at hv
            · simp only [Option.some.injEq] at hv; omega
            · exact hpos a v hv
          rcases h4 with ⟨g1, g2, g3, g4⟩ | ⟨g1, g2, g4⟩
          · have hevs : eventsIn (records c.sender log ++ [(ev, w, cur.num)]) e' =
                eventsIn (records c.sender log) e' ++ [ev] := by
              rw [eventsIn_snoc, ← ha.home, g1]; simp [g2]
            refine ⟨by rw [hevs, g4, hev]; simp, by rw [hevs]; simp, hpar, hpos2, ?_⟩
            cases ht : s.tallies (c.sender, e') with
            | some t0 =>
              rw [ht] at h3
              subst h3
              obtain ⟨_, _, _, _, l₁, st, l₂, ev0, w0, q1, q2, q3, q4, q5⟩ := ha.tally e' _ ht
              exact ⟨l₁, st, l₂ ++ [⟨s, c, r, s'⟩], ev0, w0, by rw [q1]; simp, q2, q3, q4,
                by rw [h7]; exact q5⟩
            | none =>
              rw [ht] at h3
              subst h3
              refine ⟨log, ⟨s, c, r, s'⟩, [], ev, w, rfl, by rw [hro, g2], ?_, ha.empty e' ht, h7⟩
              rw [← ha.home]; exact g1
          · have hevs : eventsIn (records c.sender log ++ [(ev, w, cur.num)]) e' =
                eventsIn (records c.sender log) e' := by
              rw [eventsIn_snoc, ← ha.home, g1]
            obtain ⟨t0, ht⟩ := hi.event _ _ _ g1
            rw [ht] at h3
            subst h3
            obtain ⟨_, q0, _, _, l₁, st, l₂, ev0, w0, q1, q2, q3, q4, q5⟩ := ha.tally e' _ ht
            exact ⟨by rw [hevs, g4, hev], by rw [hevs]; exact q0, hpar, hpos2, l₁, st,
              l₂ ++ [⟨s, c, r, s'⟩], ev0, w0, by rw [q1]; simp, q2, q3, q4, by rw [h7]; exact q5⟩
        · rw [if_neg (by simp [hee])] at ht'
          obtain ⟨g1, g2, g3, g4, l₁, st, l₂, ev0, w0, q1, q2, q3, q4, q5⟩ := ha.tally e' t' ht'
          have hevs : eventsIn (records c.sender log ++ [(ev, w, cur.num)]) e' =
              eventsIn (records c.sender log) e' := by
            rw [eventsIn_snoc, ← ha.home]
            rcases h4 with ⟨f1, f2, _⟩ | ⟨f1, _⟩
            · simp only [f1]; rw [if_neg (by rw [← f2]; exact Ne.symm hee)]
            · simp only [f1]
          refine ⟨by rw [hevs]; exact g1, by rw [hevs]; exact g2, ?_, g4, l₁, st,
            l₂ ++ [⟨s, c, r, s'⟩], ev0, w0, by rw [q1]; simp, q2, q3, q4, q5⟩
          intro a
          rw [recordsIn_snoc, hhome, g3]
          simp [Ne.symm hee]
    · refine same (by simp [recordOf, hm, hk]) ?_ ?_
      · intro ev'
        rcases h4 with ⟨_, _, g3, _⟩ | ⟨_, g2, _⟩
        · rw [g3, KV.set_apply, if_neg (by simp [Ne.symm hk])]
        · rw [g2]
      · intro e'
        rw [htal, KV.set_apply, if_neg (by simp [Ne.symm hk])]
  · have hf := (step_frame hi hx).2.2.1 (fun ev w h => hm ⟨ev, w, h⟩)
    refine same ?_ (fun ev => by rw [hf.2]) (fun e => by rw [hf.1])
    unfold recordOf
    split
    · rename_i ev w h
      exact absurd ⟨ev, w, h⟩ hm
    · rfl

/-- C42: after any history, an event belongs to the epoch of its first record, for ever. -/
theorem C42_event_home (cfg : Config) (p : Params) (h : Nat) (cs : List Call) (k : Addr) (ev : Str) :
    (stateAfter cfg p h cs).events (ev, k) = homeEpoch (records k (trace cfg p h cs)) ev :=
  (agrees cfg p h cs k).home ev

/-- C42: an epoch has a tally exactly if some event was first recorded in it; the tally counts those
events once each, and for every worker all records made for those events; its parameters are the ones
in force when the first of those events was recorded. -/
theorem C42_tally (cfg : Config) (p : Params) (h : Nat) (cs : List Call) (k : Addr) (e : Nat) :
    ((stateAfter cfg p h cs).tallies (k, e) = none ↔
      eventsIn (records k (trace cfg p h cs)) e = []) ∧
    ∀ t, (stateAfter cfg p h cs).tallies (k, e) = some t →
      t.eventCount = (eventsIn (records k (trace cfg p h cs)) e).length ∧
      (∀ a v, t.participation.get? a = some v ↔
        v = recordsIn (records k (trace cfg p h cs)) e a ∧ 0 < v) ∧
      ∃ l₁ st l₂ ev w, trace cfg p h cs = l₁ ++ st :: l₂ ∧ recordOf k st = some (ev, w, e) ∧
        homeEpoch (records k l₁) ev = none ∧ eventsIn (records k l₁) e = [] ∧
        t.params = st.pre.params := by
  have ha := agrees cfg p h cs k
  refine ⟨⟨ha.empty e, ?_⟩, ?_⟩
  · intro he
    cases ht : (stateAfter cfg p h cs).tallies (k, e) with
    | none => rfl
    | some t => exact absurd he (ha.tally e t ht).2.1
  · intro t ht
    obtain ⟨g1, _, g3, g4, g5⟩ := ha.tally e t ht
    refine ⟨g1, ?_, g5⟩
    intro a v
    rw [← g3]
    unfold amt
    constructor
    · intro hv; rw [hv]; exact ⟨rfl, g4 a v hv⟩
    · rintro ⟨rfl, hv⟩
      cases hg : t.participation.get? a with
      | none => rw [hg] at hv; simp at hv
      | some x => rfl

example : records 7 (trace exCfg exParams 5 exCalls) =
      [("a".toList, 22, 0), ("a".toList, 21, 0), ("b".toList, 21, 0), ("b".toList, 23, 1),
        ("b".toList, 23, 1), ("a".toList, 23, 1)] ∧
    eventsIn (records 7 (trace exCfg exParams 5 exCalls)) 0 = ["a".toList, "b".toList] ∧
    recordsIn (records 7 (trace exCfg exParams 5 exCalls)) 0 23 = 3 ∧
    ((stateAfter exCfg exParams 5 exCalls).tallies (7, 0)).isSome := by decide

/-- C41: eligibility in terms of the history: for an epoch with events, a worker is due an equal share
exactly if the number of its records for the events of that epoch, divided by the number of those events,
reaches the threshold and does not exceed one. -/
theorem C41_due_from_history (cfg : Config) (p : Params) (h : Nat) (cs : List Call) (k a : Addr)
    (e : Nat) (rs : List (Str × Addr × Nat)) (hrs : rs = records k (trace cfg p h cs)) (t : Tally)
    (ht : (stateAfter cfg p h cs).tallies (k, e) = some t) :
    due (stateAfter cfg p h cs) k a e =
      if 0 < recordsIn rs e a ∧ recordsIn rs e a ≤ (eventsIn rs e).length ∧
          t.params.threshold.num * (eventsIn rs e).length ≤ recordsIn rs e a * t.params.threshold.den
      then t.params.rewards / eligibleNum t else 0 := by
  obtain ⟨h1, h2, _⟩ := (C42_tally cfg p h cs k e).2 t ht
  rw [← hrs] at h1 h2
  simp only [due, ht, share]
  congr 1
  simp only [eq_iff_iff]
  unfold eligible
  cases hg : t.participation.get? a with
  | none =>
    simp only [Bool.false_eq_true, false_iff]
    rintro ⟨hpos, _⟩
    have := (h2 a (recordsIn rs e a)).mpr ⟨rfl, hpos⟩
    rw [hg] at this
    simp at this
  | some v =>
    obtain ⟨rfl, hv⟩ := (h2 a v).mp hg
    simp only [decide_eq_true_eq, h1]

example : due (stateAfter exCfg exParams 5 exCalls) 7 22 0 = 50 ∧
    due (stateAfter exCfg exParams 5 exCalls) 7 23 0 = 0 := by decide

/-! ### C43 -/

/-- C43: the current epoch contains the height it is computed for: it has begun and is not over. -/
theorem C43_epoch_contains (s : State) (h : Nat) (e : Epoch) (he : currentEpoch s h = .ok e) :
    e.start ≤ h ∧ h < e.start + s.params.duration := by
  obtain ⟨h1, h2, _, rfl⟩ := currentEpoch_ok.mp he
  simp only
  have hd := Nat.div_add_mod (h - s.lastUpdated.start) s.params.duration
  have hl := Nat.mod_lt (h - s.lastUpdated.start) (Nat.pos_of_ne_zero h2)
  rw [Nat.mul_comm] at hd
  generalize (h - s.lastUpdated.start) / s.params.duration * s.params.duration = q at *
  omega

theorem epochNum_mono {s : State} {h h' n n' : Nat} (hle : h ≤ h') (h1 : epochNum s h = some n)
    (h2 : epochNum s h' = some n') : n ≤ n' := by
  obtain ⟨e, g1, rfl⟩ := epochNum_some.mp h1
  obtain ⟨e', g2, rfl⟩ := epochNum_some.mp h2
  obtain ⟨_, _, _, rfl⟩ := currentEpoch_ok.mp g1
  obtain ⟨_, _, _, rfl⟩ := currentEpoch_ok.mp g2
  simp only
  have : (h - s.lastUpdated.start) / s.params.duration ≤
      (h' - s.lastUpdated.start) / s.params.duration := Nat.div_le_div_right (by omega)
  omega

theorem epochNum_congr {s s' : State} (h1 : s'.params = s.params) (h2 : s'.lastUpdated = s.lastUpdated)
    (h : Nat) : epochNum s' h = epochNum s h := by
  unfold epochNum currentEpoch
  rw [h1, h2]

/-- C43: a parameter update leaves the current block in the same epoch or starts the next one with it:
no epoch number is skipped. -/
theorem C43_update_no_skip (cfg : Config) (p : Params) (h : Nat) (cs : List Call) (c : Call)
    (q : Params) (hm : c.msg = .updateParams q) {s' : State} {r : Resp}
    (hx : exec (stateAfter cfg p h cs) c = .ok (s', r)) :
    ∃ n, epochNum (stateAfter cfg p h cs) c.height = some n ∧
      ∀ m, epochNum s' c.height = some m → m = n ∨ m = n + 1 := by
  generalize stateAfter cfg p h cs = s at hx
  simp only [exec, hm] at hx
  obtain ⟨_, _, cur, hcur, hh⟩ := update_ok hx
  refine ⟨cur.num, epochNum_some.mpr ⟨cur, hcur, rfl⟩, ?_⟩
  intro m hm'
  obtain ⟨e, he, rfl⟩ := epochNum_some.mp hm'
  rcases hh with ⟨h1, rfl⟩ | ⟨h1, rfl⟩
  · obtain ⟨_, _, _, rfl⟩ := currentEpoch_ok.mp he
    right
    simp
  · obtain ⟨h2, h3, _, rfl⟩ := currentEpoch_ok.mp he
    simp only at h2 h3 ⊢
    have : (c.height - cur.start) / q.duration ≤ 1 := by
      apply Nat.le_of_lt_succ
      rw [Nat.div_lt_iff_lt_mul (Nat.pos_of_ne_zero h3)]
      omega
    generalize (c.height - cur.start) / q.duration = x at *
    omega

/-- C43: calls other than parameter updates do not move the epochs. -/
theorem C43_other_calls (cfg : Config) (p : Params) (h : Nat) (cs : List Call) (c : Call)
    (hm : ∀ q, c.msg ≠ .updateParams q) {s' : State} {r : Resp}
    (hx : exec (stateAfter cfg p h cs) c = .ok (s', r)) (height : Nat) :
    currentEpoch s' height = currentEpoch (stateAfter cfg p h cs) height := by
  obtain ⟨h1, h2⟩ := (step_frame (inv_reachable cfg p h cs) hx).2.1 hm
  unfold currentEpoch
  rw [h1, h2]

/-- C43: along any history with non-decreasing heights the epoch number never decreases, whatever
parameter updates happen in between. -/
theorem C43_monotone (cfg : Config) (p : Params) (h0 : Nat) (cs₁ cs₂ : List Call) (h h' n n' : Nat)
    (hsorted : (cs₂.map (·.height)).Pairwise (· ≤ ·))
    (hbetween : ∀ c ∈ cs₂, h ≤ c.height ∧ c.height ≤ h') (hle : h ≤ h')
    (h1 : epochNum (stateAfter cfg p h0 cs₁) h = some n)
    (h2 : epochNum (stateAfter cfg p h0 (cs₁ ++ cs₂)) h' = some n') : n ≤ n' := by
  have hsplit : stateAfter cfg p h0 (cs₁ ++ cs₂) = runCalls exec (stateAfter cfg p h0 cs₁) cs₂ := by
    unfold stateAfter; rw [runCalls_append]
  rw [hsplit] at h2
  have hi := inv_reachable cfg p h0 cs₁
  clear hsplit
  revert h1 h2 hi
  generalize stateAfter cfg p h0 cs₁ = s
  intro h1 h2 hi
  have hlb : ∀ g ≥ h, ∀ m, epochNum s g = some m → n ≤ m := fun g hg m hm =>
    epochNum_mono hg h1 hm
  clear h1
  induction cs₂ generalizing s h with
  | nil => exact hlb h' hle n' h2
  | cons c cs ih =>
    simp only [List.map_cons, List.pairwise_cons] at hsorted
    obtain ⟨hc1, hc2⟩ := hbetween c (by simp)
    cases hx : exec s c with
    | error x =>
      rw [runCalls_cons, hx] at h2
      exact ih h hsorted.2 (fun d hd => hbetween d (List.mem_cons_of_mem _ hd)) hle s h2 hi hlb
    | ok x =>
      obtain ⟨s', r⟩ := x
      rw [runCalls_cons, hx] at h2
      refine ih c.height hsorted.2 ?_ hc2 s' h2 (inv_step hi hx) ?_
      · intro d hd
        exact ⟨hsorted.1 _ (List.mem_map.mpr ⟨d, hd, rfl⟩), (hbetween d (List.mem_cons_of_mem _ hd)).2⟩
      · intro g hg m hm
        by_cases hu : ∃ q, c.msg = .updateParams q
        · obtain ⟨q, hu⟩ := hu
          simp only [exec, hu] at hx
          obtain ⟨_, _, cur, hcur, hh⟩ := update_ok hx
          have hn : n ≤ cur.num := hlb c.height hc1 _ (epochNum_some.mpr ⟨cur, hcur, rfl⟩)
          obtain ⟨e, he, rfl⟩ := epochNum_some.mp hm
          rcases hh with ⟨_, rfl⟩ | ⟨_, rfl⟩
          · obtain ⟨_, _, _, rfl⟩ := currentEpoch_ok.mp he
            simp only
            generalize (g - c.height) / q.duration = x
            omega
          · obtain ⟨_, _, _, rfl⟩ := currentEpoch_ok.mp he
            simp only
            generalize (g - cur.start) / q.duration = x
            omega
        · obtain ⟨e1, e2⟩ := (step_frame hi hx).2.1 (fun q hq => hu ⟨q, hq⟩)
          rw [epochNum_congr e1 e2] at hm
          exact hlb g (Nat.le_trans hc1 hg) m hm

/-- C43: with heights that never go below the instantiation height, the recorded start of an epoch is
never in the future: a call is not rejected for a height in the past. -/
theorem C43_start_not_future (cfg : Config) (p : Params) (h0 : Nat) (cs : List Call) (h : Nat)
    (hle : h0 ≤ h) (hmax : ∀ c ∈ cs, c.height ≤ h) :
    (stateAfter cfg p h0 cs).lastUpdated.start ≤ h ∧
      currentEpoch (stateAfter cfg p h0 cs) h ≠ .error .blockHeightInPast := by
  have key : (stateAfter cfg p h0 cs).lastUpdated.start ≤ h := by
    suffices H : ∀ cs s, Inv s → (∀ c ∈ cs, c.height ≤ h) → s.lastUpdated.start ≤ h →
        (runCalls exec s cs).lastUpdated.start ≤ h from H cs _ (inv_init cfg p h0) hmax hle
    intro cs
    induction cs with
    | nil => intro s _ _ hs; exact hs
    | cons c cs ih =>
      intro s hi hc hs
      rw [runCalls_cons]
      cases hx : exec s c with
      | error x => exact ih s hi (fun d hd => hc d (List.mem_cons_of_mem _ hd)) hs
      | ok x =>
        obtain ⟨s', r⟩ := x
        refine ih s' (inv_step hi hx) (fun d hd => hc d (List.mem_cons_of_mem _ hd)) ?_
        by_cases hu : ∃ q, c.msg = .updateParams q
        · obtain ⟨q, hu⟩ := hu
          simp only [exec, hu] at hx
          obtain ⟨_, _, cur, hcur, hh⟩ := update_ok hx
          rcases hh with ⟨_, rfl⟩ | ⟨_, rfl⟩
          · exact hc c (by simp)
          · exact Nat.le_trans (C43_epoch_contains s c.height cur hcur).1 (hc c (by simp))
        · rw [((step_frame hi hx).2.1 (fun q hq => hu ⟨q, hq⟩)).2]
          exact hs
  refine ⟨key, ?_⟩
  unfold currentEpoch
  rw [if_neg (Nat.not_lt.mpr key)]
  split
  · simp
  · simp only
    by_cases ho : (stateAfter cfg p h0 cs).lastUpdated.num +
        (h - (stateAfter cfg p h0 cs).lastUpdated.start) /
          (stateAfter cfg p h0 cs).params.duration > u64Max
    · rw [if_pos ho]; simp
    · rw [if_neg ho]; simp

example : epochNum (stateAfter exCfg exParams 5 (exCalls.take 9)) 26 = some 2 ∧
    epochNum (stateAfter exCfg exParams 5 exCalls) 26 = some 2 ∧
    epochNum (stateAfter exCfg exParams 5 exCalls) 29 = some 3 ∧
    epochNum (stateAfter exCfg exParams 5
      (exCalls ++ [⟨1, [], 27, .updateParams ⟨1, 50, ⟨1, 1⟩⟩⟩])) 27 = some 3 := by decide

/-! ### C44 -/

/-- C44: parameters and epoch bookkeeping change only by a governance call `UpdateParams`, which sets
the given parameters and touches neither pools nor tallies, events or watermarks. -/
theorem C44_params_governance (cfg : Config) (p : Params) (h : Nat) (cs : List Call) (c : Call)
    {s' : State} {r : Resp} (hx : exec (stateAfter cfg p h cs) c = .ok (s', r)) :
    (∀ q, c.msg = .updateParams q → c.sender = cfg.governance ∧ s'.params = q ∧
      s'.pools = (stateAfter cfg p h cs).pools ∧ s'.tallies = (stateAfter cfg p h cs).tallies ∧
      s'.events = (stateAfter cfg p h cs).events ∧
      s'.watermarks = (stateAfter cfg p h cs).watermarks ∧ r = {}) ∧
    ((s'.params ≠ (stateAfter cfg p h cs).params ∨
      s'.lastUpdated ≠ (stateAfter cfg p h cs).lastUpdated) →
      c.sender = cfg.governance ∧ ∃ q, c.msg = .updateParams q) := by
  have hi := inv_reachable cfg p h cs
  have hcfg : (stateAfter cfg p h cs).config = cfg := by
    have := runCalls_inv exec (P := fun s => Inv s ∧ s.config = cfg)
      (fun _ _ _ _ hi hx => ⟨inv_step hi.1 hx, by rw [(step_frame hi.1 hx).1, hi.2]⟩) _
      ⟨inv_init cfg p h, rfl⟩ cs
    exact this.2
  have first : ∀ q, c.msg = .updateParams q → c.sender = cfg.governance ∧ s'.params = q ∧
      s'.pools = (stateAfter cfg p h cs).pools ∧ s'.tallies = (stateAfter cfg p h cs).tallies ∧
      s'.events = (stateAfter cfg p h cs).events ∧
      s'.watermarks = (stateAfter cfg p h cs).watermarks ∧ r = {} := by
    intro q hm
    simp only [exec, hm] at hx
    obtain ⟨hg, hr, cur, _, hh⟩ := update_ok hx
    rw [hcfg] at hg
    rcases hh with ⟨_, rfl⟩ | ⟨_, rfl⟩
    · exact ⟨hg.symm, rfl, rfl, rfl, rfl, rfl, hr⟩
    · exact ⟨hg.symm, rfl, rfl, rfl, rfl, rfl, hr⟩
  refine ⟨first, ?_⟩
  intro hne
  by_cases hu : ∃ q, c.msg = .updateParams q
  · obtain ⟨q, hu⟩ := hu
    exact ⟨(first q hu).1, q, hu⟩
  · obtain ⟨e1, e2⟩ := (step_frame hi hx).2.1 (fun q hq => hu ⟨q, hq⟩)
    rcases hne with hne | hne
    · exact absurd e1 hne
    · exact absurd e2 hne

/-- C44: a deposit is accepted exactly if it consists of one non-zero coin of the reward denomination
(and the balance does not overflow); it only adds that amount to the named pool. -/
theorem C44_deposit (cfg : Config) (p : Params) (h : Nat) (cs : List Call) (c : Call) (k : Addr)
    (hm : c.msg = .addRewards k) :
    ((∃ s' r, exec (stateAfter cfg p h cs) c = .ok (s', r)) ↔
      ∃ x, c.funds = [(cfg.denom, x)] ∧ x ≠ 0 ∧ poolOf (stateAfter cfg p h cs) k + x ≤ u128Max) ∧
    (∀ s' r, exec (stateAfter cfg p h cs) c = .ok (s', r) →
      poolOf s' k = poolOf (stateAfter cfg p h cs) k + amountOf cfg.denom c.funds ∧
      (∀ k', k' ≠ k → poolOf s' k' = poolOf (stateAfter cfg p h cs) k')) := by
  have hcfg : (stateAfter cfg p h cs).config = cfg := by
    have := runCalls_inv exec (P := fun s => Inv s ∧ s.config = cfg)
      (fun _ _ _ _ hi hx => ⟨inv_step hi.1 hx, by rw [(step_frame hi.1 hx).1, hi.2]⟩) _
      ⟨inv_init cfg p h, rfl⟩ cs
    exact this.2
  simp only [exec, hm]
  refine ⟨⟨?_, ?_⟩, ?_⟩
  · rintro ⟨s', r, hx⟩
    obtain ⟨x, h1, h2, h3, _⟩ := add_ok.mp hx
    rw [hcfg] at h1
    exact ⟨x, h1, h2, h3⟩
  · rintro ⟨x, h1, h2, h3⟩
    exact ⟨_, _, add_ok.mpr ⟨x, by rw [hcfg]; exact h1, h2, h3, rfl, rfl⟩⟩
  · intro s' r hx
    obtain ⟨x, h1, h2, h3, _, h5⟩ := add_ok.mp hx
    rw [hcfg] at h1
    have hp : ∀ k', poolOf s' k' = if k' = k then poolOf (stateAfter cfg p h cs) k + x
        else poolOf (stateAfter cfg p h cs) k' := by
      intro k'
      rw [poolOf_eq, h5]
      simp only [amt_set]
      rfl
    refine ⟨?_, ?_⟩
    · rw [hp, if_pos rfl, h1, amountOf_single]
    · intro k' hk'
      rw [hp, if_neg hk']

/-- C44: a record is credited to the calling contract only: no tally or event of another contract
changes, and no call other than `RecordParticipation` changes any. -/
theorem C44_records_own (cfg : Config) (p : Params) (h : Nat) (cs : List Call) (c : Call)
    {s' : State} {r : Resp} (hx : exec (stateAfter cfg p h cs) c = .ok (s', r)) (k : Addr)
    (hk : k ≠ c.sender ∨ ∀ ev w, c.msg ≠ .recordParticipation ev w) :
    (∀ e, s'.tallies (k, e) = (stateAfter cfg p h cs).tallies (k, e)) ∧
    (∀ ev, s'.events (ev, k) = (stateAfter cfg p h cs).events (ev, k)) := by
  have hi := inv_reachable cfg p h cs
  by_cases hm : ∃ ev w, c.msg = .recordParticipation ev w
  · obtain ⟨ev, w, hm⟩ := hm
    have hk : k ≠ c.sender := by
      rcases hk with hk | hk
      · exact hk
      · exact absurd hm (hk ev w)
    simp only [exec, hm] at hx
    obtain ⟨cur, e, t, t2, h1, h2, h3, h4, h5, h6, h7, h8⟩ := record_ok hx
    refine ⟨fun e' => ?_, fun ev' => ?_⟩
    · rw [h8]
      simp only [KV.set_apply]
      rw [if_neg (by simp [hk])]
    · rcases h4 with ⟨_, _, g3, _⟩ | ⟨_, g2, _⟩
      · rw [g3, KV.set_apply, if_neg (by simp [hk])]
      · rw [g2]
  · have hf := (step_frame hi hx).2.2.1 (fun ev w h => hm ⟨ev, w, h⟩)
    exact ⟨fun e => by rw [hf.1], fun ev => by rw [hf.2]⟩

example : (∃ e, exec (stateAfter exCfg exParams 5 exCalls)
      ⟨2, [], 30, .updateParams exParams⟩ = .error e) ∧
    (∃ e, exec (stateAfter exCfg exParams 5 exCalls)
      ⟨2, [("axl".toList, 3), ("btc".toList, 1)], 30, .addRewards 7⟩ = .error e) :=
  ⟨⟨.unauthorized, rfl⟩, ⟨.wrongDenom, rfl⟩⟩

end Amp.Rewards
