import Verif.Rewards.Spec

/-! # Lemmas about the rewards model -/

namespace Amp.Rewards

open Amp.Std

/-- value of an ordered map at a key, zero if absent -/
def amt (m : OMap Addr Nat) (a : Addr) : Nat :=
  match m.get? a with
  | none => 0
  | some k => k

theorem amt_set (m : OMap Addr Nat) (a b : Addr) (k : Nat) :
    amt (m.set a k) b = if b = a then k else amt m b := by
  unfold amt
  rw [OMap.get?_set]
  split <;> rename_i h <;> split at h <;> simp_all

theorem poolOf_eq (s : State) (k : Addr) : poolOf s k = amt s.pools k := rfl

theorem sumRewards_set {m : OMap Addr Nat} (hs : OMap.Sorted m) (a : Addr) (k : Nat) :
    sumRewards (m.set a k) + amt m a = sumRewards m + k := by
  unfold sumRewards amt
  cases h : m.get? a with
  | none => simpa using OMap.sumBy_set_none (fun _ v => v) k h
  | some v => exact OMap.sumBy_set_some (fun _ v => v) hs k h

theorem amt_le_sum (m : OMap Addr Nat) (a : Addr) : amt m a ≤ sumRewards m := by
  unfold amt
  split
  · omega
  · rename_i k h
    have hm := OMap.mem_of_get? h
    have hg : ∀ (m : OMap Addr Nat), (a, k) ∈ m → k ≤ sumRewards m := by
      intro m hm
      induction m with
      | nil => simp at hm
      | cons e t ih =>
        rcases List.mem_cons.mp hm with h | h
        · subst h; simp [sumRewards, OMap.sumBy]
        · have := ih h
          simp only [sumRewards, OMap.sumBy_cons] at *
          omega
    exact hg m hm

/-! ### epochs -/

theorem currentEpoch_ok {s : State} {h : Nat} {e : Epoch} : currentEpoch s h = .ok e ↔
    s.lastUpdated.start ≤ h ∧ s.params.duration ≠ 0 ∧
    s.lastUpdated.num + (h - s.lastUpdated.start) / s.params.duration ≤ u64Max ∧
    e = ⟨s.lastUpdated.num + (h - s.lastUpdated.start) / s.params.duration,
      s.lastUpdated.start + (h - s.lastUpdated.start) / s.params.duration * s.params.duration⟩ := by
  unfold currentEpoch
  by_cases h1 : h < s.lastUpdated.start
  · rw [if_pos h1]; simp; omega
  · rw [if_neg h1]
    by_cases h2 : s.params.duration = 0
    · rw [if_pos h2]; simp [h2]
    · rw [if_neg h2]
      simp only
      by_cases h3 : s.lastUpdated.num + (h - s.lastUpdated.start) / s.params.duration > u64Max
      · rw [if_pos h3]; simp only [reduceCtorEq, false_iff, not_and]; intro _ _ h4; exact absurd h4 (Nat.not_le.mpr h3)
      · rw [if_neg h3]
        simp only [Except.ok.injEq]
        exact ⟨fun h => ⟨Nat.le_of_not_lt h1, h2, Nat.le_of_not_lt h3, h.symm⟩, fun h => h.2.2.2.symm⟩

theorem epochNum_some {s : State} {h n : Nat} :
    epochNum s h = some n ↔ ∃ e, currentEpoch s h = .ok e ∧ e.num = n := by
  unfold epochNum
  cases currentEpoch s h <;> simp

theorem done_eq (s : State) (k : Addr) : fromEpoch s k = done s k := rfl

/-! ### the four calls -/

theorem record_ok {s s' : State} {ev : Str} {w k : Addr} {h : Nat} {r : Resp}
    (hx : recordParticipation s ev w k h = .ok (s', r)) :
    ∃ cur e t t2, currentEpoch s h = .ok cur ∧ r = {} ∧
      t = (match s.tallies (k, e) with
        | some t => t
        | none => ⟨0, [], cur, s.params⟩) ∧
      ((s.events (ev, k) = none ∧ e = cur.num ∧ s'.events = s.events.set (ev, k) cur.num ∧
          t2.eventCount = t.eventCount + 1) ∨
        (s.events (ev, k) = some e ∧ s'.events = s.events ∧ t2.eventCount = t.eventCount)) ∧
      t2.participation = t.participation.set w (amt t.participation w + 1) ∧
      t2.epoch = t.epoch ∧ t2.params = t.params ∧
      s' = { s with events := s'.events, tallies := s.tallies.set (k, t.epoch.num) t2 } := by
  unfold recordParticipation at hx
  split at hx
  · simp at hx
  rename_i cur hcur
  simp only at hx
  have hrec : ∀ (t t1 : Tally), t.record w = .ok t1 →
      t1 = { t with participation := t.participation.set w (amt t.participation w + 1) } := by
    intro t t1 ht
    unfold Tally.record at ht
    unfold amt
    split at ht
    · rename_i hn
      simp only [Except.ok.injEq] at ht
      rw [hn, ← ht]
    · rename_i v hn
      split at ht
      · simp at ht
      · simp only [Except.ok.injEq] at ht
        rw [hn, ← ht]
  unfold loadOrStoreEvent at hx
  cases hev : s.events (ev, k) with
  | none =>
    simp only [hev] at hx
    split at hx
    · simp at hx
    rename_i t1 ht1
    have ht1' := hrec _ _ ht1
    split at hx
    · simp at hx
    rename_i t2 ht2
    unfold bumpEvents at ht2
    rw [if_pos rfl] at ht2
    split at ht2
    · simp at ht2
    simp only [Except.ok.injEq, Prod.mk.injEq] at hx ht2
    obtain ⟨rfl, rfl⟩ := hx
    refine ⟨cur, cur.num, _, t2, hcur, rfl, rfl, Or.inl ⟨rfl, rfl, rfl, ?_⟩, ?_, ?_, ?_, ?_⟩
    · (rw [← ht2, ht1']) <;> rfl
    · (rw [← ht2, ht1']) <;> rfl
    · (rw [← ht2, ht1']) <;> rfl
    · (rw [← ht2, ht1']) <;> rfl
    · (rw [← ht2, ht1']) <;> rfl
  | some e =>
    simp only [hev] at hx
    split at hx
    · simp at hx
    rename_i t1 ht1
    have ht1' := hrec _ _ ht1
    split at hx
    · simp at hx
    rename_i t2 ht2
    unfold bumpEvents at ht2
    rw [if_neg (by simp)] at ht2
    simp only [Except.ok.injEq, Prod.mk.injEq] at hx ht2
    obtain ⟨rfl, rfl⟩ := hx
    refine ⟨cur, e, _, t2, hcur, rfl, rfl, Or.inr ⟨rfl, rfl, ?_⟩, ?_, ?_, ?_, ?_⟩
    · (rw [← ht2, ht1']) <;> rfl
    · (rw [← ht2, ht1']) <;> rfl
    · (rw [← ht2, ht1']) <;> rfl
    · (rw [← ht2, ht1']) <;> rfl
    · (rw [← ht2, ht1']) <;> rfl

theorem add_ok {s s' : State} {k : Addr} {funds : List Coin} {r : Resp} :
    addRewards s k funds = .ok (s', r) ↔ ∃ x, funds = [(s.config.denom, x)] ∧ x ≠ 0 ∧
      poolOf s k + x ≤ u128Max ∧ r = {} ∧
      s' = { s with pools := s.pools.set k (poolOf s k + x) } := by
  unfold addRewards
  constructor
  · intro h
    split at h
    · simp at h
    rename_i c hc
    split at h
    · simp at h
    rename_i hl
    split at h
    · simp at h
    rename_i hz
    split at h
    · simp at h
    rename_i ho
    simp only [Except.ok.injEq, Prod.mk.injEq] at h
    obtain ⟨rfl, rfl⟩ := h
    have hl : funds.length = 1 := not_not.mp hl
    obtain ⟨c', rfl⟩ := List.length_eq_one_iff.mp hl
    have h1 := List.find?_some hc
    have h2 := List.mem_of_find?_eq_some hc
    simp only [List.mem_singleton] at h2
    subst h2
    simp only [decide_eq_true_eq] at h1
    obtain ⟨d, x⟩ := c
    simp only at h1 hz ho ⊢
    subst h1
    exact ⟨x, by simp, hz, Nat.le_of_not_lt ho, trivial, rfl⟩
  · rintro ⟨x, rfl, hz, ho, rfl, rfl⟩
    simp only [List.find?_cons, decide_true, List.length_singleton, ne_eq, not_true_eq_false,
      if_false, hz]
    rw [if_neg (Nat.not_lt.mpr ho)]

theorem update_ok {s s' : State} {p : Params} {h : Nat} {a : Addr} {r : Resp}
    (hx : updateParams s p h a = .ok (s', r)) :
    s.config.governance = a ∧ r = {} ∧ ∃ cur, currentEpoch s h = .ok cur ∧
      ((cur.start + p.duration < h ∧ s' = { s with params := p, lastUpdated := ⟨cur.num + 1, h⟩ }) ∨
        (h ≤ cur.start + p.duration ∧ s' = { s with params := p, lastUpdated := cur })) := by
  unfold updateParams at hx
  split at hx
  · simp at hx
  rename_i hg
  split at hx
  · simp at hx
  rename_i cur hcur
  split at hx
  · simp at hx
  split at hx
  · rename_i hlt
    split at hx
    · simp at hx
    simp only [Except.ok.injEq, Prod.mk.injEq] at hx
    exact ⟨not_not.mp hg, hx.2.symm, cur, hcur, Or.inl ⟨hlt, hx.1.symm⟩⟩
  · rename_i hlt
    simp only [Except.ok.injEq, Prod.mk.injEq] at hx
    exact ⟨not_not.mp hg, hx.2.symm, cur, hcur, Or.inr ⟨Nat.le_of_not_lt hlt, hx.1.symm⟩⟩

/-! ### merging and cumulating rewards -/

/-- sum of the entries of a list for one key -/
def entriesFor (l : List (Addr × Nat)) (a : Addr) : Nat :=
  (l.map (fun e => if e.1 = a then e.2 else 0)).sum

/-- sum of all entries -/
def entriesSum (l : List (Addr × Nat)) : Nat := (l.map (fun e => e.2)).sum

theorem merge_ok (l : List (Addr × Nat)) : ∀ {acc m : OMap Addr Nat}, OMap.Sorted acc →
    mergeRewards acc l = .ok m → OMap.Sorted m ∧ (∀ a, amt m a = amt acc a + entriesFor l a) ∧
      sumRewards m = sumRewards acc + entriesSum l := by
  induction l with
  | nil =>
    intro acc m hs h
    simp only [mergeRewards, Except.ok.injEq] at h
    subst h
    exact ⟨hs, fun a => by simp [entriesFor], by simp [entriesSum]⟩
  | cons e t ih =>
    obtain ⟨b, k⟩ := e
    intro acc m hs h
    have key : mergeRewards (acc.set b (amt acc b + k)) t = .ok m := by
      simp only [mergeRewards] at h
      unfold amt
      split at h
      · rename_i hb; rw [hb]; simpa using h
      · rename_i v hb
        split at h
        · simp at h
        · rw [hb]; exact h
    obtain ⟨h1, h2, h3⟩ := ih (OMap.sorted_set hs _ _) key
    refine ⟨h1, ?_, ?_⟩
    · intro a
      rw [h2, amt_set]
      simp only [entriesFor, List.map_cons, List.sum_cons]
      by_cases hab : b = a
      · subst hab; simp; omega
      · rw [if_neg (Ne.symm hab), if_neg hab]; omega
    · rw [h3]
      have := sumRewards_set hs b (amt acc b + k)
      simp only [entriesSum, List.map_cons, List.sum_cons]
      omega

theorem merge_exists (l : List (Addr × Nat)) : ∀ {acc : OMap Addr Nat}, OMap.Sorted acc →
    sumRewards acc + entriesSum l ≤ u128Max → ∃ m, mergeRewards acc l = .ok m := by
  induction l with
  | nil => intro acc _ _; exact ⟨acc, rfl⟩
  | cons e t ih =>
    obtain ⟨b, k⟩ := e
    intro acc hs h
    have hle := amt_le_sum acc b
    have hset := sumRewards_set hs b (amt acc b + k)
    simp only [entriesSum, List.map_cons, List.sum_cons] at h ih
    have hsum : sumRewards (acc.set b (amt acc b + k)) + (t.map (fun e => e.2)).sum ≤ u128Max := by
      generalize u128Max = M at *
      omega
    obtain ⟨m, hm⟩ := ih (OMap.sorted_set hs b _) hsum
    refine ⟨m, ?_⟩
    simp only [mergeRewards]
    unfold amt at hm hle
    split
    · rename_i hb; rw [hb] at hm; simpa using hm
    · rename_i v hb
      rw [hb] at hm hle
      simp only at hm hle
      rw [if_neg ?_]
      · exact hm
      · generalize u128Max = M at *
        omega

/-- participation maps are sorted and stored under the epoch they belong to -/
structure Inv (s : State) : Prop where
  pools : OMap.Sorted s.pools
  poolMax : ∀ k, poolOf s k ≤ u128Max
  part : ∀ k e t, s.tallies (k, e) = some t → OMap.Sorted t.participation
  key : ∀ k e t, s.tallies (k, e) = some t → t.epoch.num = e
  event : ∀ ev k e, s.events (ev, k) = some e → ∃ t, s.tallies (k, e) = some t

theorem eligibleCount_iff (t : Tally) (k : Nat) : eligibleCount t k = true ↔
    0 < k ∧ k ≤ t.eventCount ∧
      t.params.threshold.num * t.eventCount ≤ k * t.params.threshold.den := by
  unfold eligibleCount Threshold.tryFrom
  by_cases h1 : k = 0
  · simp [h1]
  · by_cases h2 : t.eventCount = 0
    · simp [h1, h2]
    · by_cases h3 : k > t.eventCount
      · rw [if_neg h1, if_neg h2, if_pos h3]
        simp
        omega
      · rw [if_neg h1, if_neg h2, if_neg h3]
        simp only [Threshold.ge, Threshold.partialCmp, bne_iff_ne, ne_eq, Nat.compare_eq_lt]
        constructor
        · intro h; exact ⟨by omega, by omega, by omega⟩
        · rintro ⟨_, _, h⟩; omega

theorem workersToReward_eq {t : Tally} (hs : OMap.Sorted t.participation) :
    workersToReward t = t.participation.keys.filter (eligible t) := by
  have hsuff : ∀ l : OMap Addr Nat, (∀ e ∈ l, t.participation.get? e.1 = some e.2) →
      (l.filter (fun e => eligibleCount t e.2)).map Prod.fst =
        (l.map Prod.fst).filter (eligible t) := by
    intro l hl
    induction l with
    | nil => rfl
    | cons e l ih =>
      have he := hl e (by simp)
      have hih := ih (fun x hx => hl x (List.mem_cons_of_mem _ hx))
      have heq : eligibleCount t e.2 = eligible t e.1 := by
        rw [Bool.eq_iff_iff, eligibleCount_iff]
        simp [eligible, he]
      simp only [List.map_cons, List.filter_cons, heq]
      split <;> simp [hih]
  exact hsuff t.participation (fun e he => OMap.get?_of_mem hs he)

theorem eligible_mem {t : Tally} {a : Addr} (h : eligible t a = true) : a ∈ t.participation.keys := by
  by_contra hn
  have := OMap.get?_eq_none_iff.mpr hn
  simp [eligible, this] at h

theorem rewards_entries {t : Tally} (hs : OMap.Sorted t.participation) :
    (∀ a, entriesFor (rewardsByWorker t) a = share t a) ∧
      entriesSum (rewardsByWorker t) = epochTotal t := by
  have hw := workersToReward_eq hs
  have hnd : (t.participation.keys.filter (eligible t)).Nodup := (OMap.keys_nodup hs).filter _
  have htot : ∀ l : List Addr, ((l.map (share t)).sum =
      (l.filter (eligible t)).length * (t.params.rewards / eligibleNum t)) := by
    intro l
    induction l with
    | nil => simp
    | cons a l ih =>
      simp only [List.map_cons, List.sum_cons, ih, List.filter_cons, share]
      split
      · simp [Nat.succ_mul]; omega
      · simp
  have hpw : (if (workersToReward t).length = 0 then 0
      else t.params.rewards / (workersToReward t).length) = t.params.rewards / eligibleNum t := by
    rw [hw]
    unfold eligibleNum
    split
    · rename_i h0; rw [h0]; simp
    · rfl
  unfold rewardsByWorker
  simp only [hpw]
  by_cases h0 : t.params.rewards / eligibleNum t = 0
  · rw [if_pos h0]
    refine ⟨fun a => by simp [entriesFor, share, h0], ?_⟩
    unfold epochTotal
    rw [htot, h0]
    simp [entriesSum]
  · rw [if_neg h0]
    refine ⟨?_, ?_⟩
    · intro a
      have hgen : ∀ l : List Addr, l.Nodup →
          entriesFor (l.map (fun w => (w, t.params.rewards / eligibleNum t))) a =
            if a ∈ l then t.params.rewards / eligibleNum t else 0 := by
        intro l hl
        induction l with
        | nil => simp [entriesFor]
        | cons b l ih =>
          simp only [List.nodup_cons] at hl
          have := ih hl.2
          simp only [entriesFor, List.map_cons, List.sum_cons, List.mem_cons] at this ⊢
          rw [this]
          by_cases hab : b = a
          · subst hab; simp [hl.1]
          · simp [hab, Ne.symm hab]
      rw [hgen _ (by rw [hw]; exact hnd), hw]
      unfold share
      by_cases he : eligible t a = true
      · rw [if_pos (List.mem_filter.mpr ⟨eligible_mem he, he⟩), if_pos he]
      · rw [if_neg (fun h => he (List.mem_filter.mp h).2), if_neg he]
    · unfold epochTotal
      rw [htot]
      unfold entriesSum
      rw [List.map_map]
      have : ∀ (l : List Addr) (x : Nat), (l.map ((fun e : Addr × Nat => e.2) ∘ fun w => (w, x))).sum =
          l.length * x := by
        intro l x
        induction l with
        | nil => simp
        | cons a l ih => simp only [List.map_cons, List.sum_cons, ih, Function.comp, List.length_cons,
            Nat.succ_mul]; omega
      rw [this, hw]

theorem cumulate_ok {s : State} (hi : Inv s) (k : Addr) (n : Nat) : ∀ {acc m : OMap Addr Nat} {fr : Nat},
    OMap.Sorted acc → cumulate s k acc fr n = .ok m →
    OMap.Sorted m ∧
      (∀ a, amt m a = amt acc a + ((List.range' fr n).map (due s k a)).sum) ∧
      sumRewards m = sumRewards acc + ((List.range' fr n).map (dueTotal s k)).sum := by
  induction n with
  | zero =>
    intro acc m fr hs h
    simp only [cumulate, Except.ok.injEq] at h
    subst h
    exact ⟨hs, fun a => by simp, by simp⟩
  | succ n ih =>
    intro acc m fr hs h
    simp only [cumulate] at h
    simp only [List.range'_succ, List.map_cons, List.sum_cons]
    split at h
    · rename_i hn
      obtain ⟨h1, h2, h3⟩ := ih hs h
      refine ⟨h1, fun a => ?_, ?_⟩
      · rw [h2]; simp [due, hn]
      · rw [h3]; simp [dueTotal, hn]
    · rename_i t hn
      split at h
      · simp at h
      rename_i acc' hm
      obtain ⟨g1, g2, g3⟩ := merge_ok _ hs hm
      obtain ⟨e1, e2⟩ := rewards_entries (hi.part k fr t hn)
      obtain ⟨h1, h2, h3⟩ := ih g1 h
      refine ⟨h1, fun a => ?_, ?_⟩
      · rw [h2, g2, e1]; simp only [due, hn]; omega
      · rw [h3, g3, e2]; simp only [dueTotal, hn]; omega

theorem cumulate_exists {s : State} (hi : Inv s) (k : Addr) (n : Nat) :
    ∀ {acc : OMap Addr Nat} {fr : Nat}, OMap.Sorted acc →
    sumRewards acc + ((List.range' fr n).map (dueTotal s k)).sum ≤ u128Max →
    ∃ m, cumulate s k acc fr n = .ok m := by
  induction n with
  | zero => intro acc fr _ _; exact ⟨acc, rfl⟩
  | succ n ih =>
    intro acc fr hs h
    simp only [List.range'_succ, List.map_cons, List.sum_cons] at h
    simp only [cumulate]
    split
    · rename_i hn
      simp only [dueTotal, hn] at h
      refine ih hs ?_
      simpa using h
    · rename_i t hn
      obtain ⟨e1, e2⟩ := rewards_entries (hi.part k fr t hn)
      have hdt : dueTotal s k fr = epochTotal t := by simp [dueTotal, hn]
      rw [hdt] at h
      obtain ⟨acc', ha⟩ := merge_exists (rewardsByWorker t) hs
        (by rw [e2]; generalize u128Max = M at *; omega)
      obtain ⟨g1, _, g3⟩ := merge_ok _ hs ha
      rw [ha]
      refine ih g1 ?_
      rw [g3, e2]
      generalize u128Max = M at *
      omega

theorem distribute_ok {s s' : State} (hi : Inv s) {k : Addr} {h : Nat} {n : Option Nat} {r : Resp} :
    distribute s k h n = .ok (s', r) ↔
    ∃ cur m upto, currentEpoch s h = .ok cur ∧ done s k + limitOf n ≤ u64Max ∧ 2 ≤ cur.num ∧
      upto = toEpoch (done s k) (limitOf n) cur.num ∧ done s k ≤ upto ∧
      cumulate s k [] (done s k) (upto + 1 - done s k) = .ok m ∧
      sumRewards m ≤ poolOf s k ∧
      r = { sends := m.map (fun e => (e.1, (s.config.denom, e.2))) } ∧
      s' = { s with pools := s.pools.set k (poolOf s k - sumRewards m),
                    watermarks := s.watermarks.set k upto } := by
  unfold distribute
  rw [← done_eq]
  simp only
  constructor
  · intro hx
    split at hx
    · simp at hx
    rename_i cur hcur
    by_cases h63 : fromEpoch s k > u64Max
    · rw [if_pos h63] at hx; simp at hx
    rw [if_neg h63] at hx
    by_cases h64 : fromEpoch s k + limitOf n > u64Max
    · rw [if_pos h64] at hx; simp at hx
    rw [if_neg h64] at hx
    by_cases hno : toEpoch (fromEpoch s k) (limitOf n) cur.num < fromEpoch s k ∨ cur.num < 2
    · rw [if_pos hno] at hx; simp at hx
    rw [if_neg hno] at hx
    split at hx
    · simp at hx
    rename_i s1 m hp
    unfold processRewards at hp
    split at hp
    · simp at hp
    rename_i m' hm
    split at hp
    · simp at hp
    split at hp
    · simp at hp
    rename_i hle
    simp only [Except.ok.injEq, Prod.mk.injEq] at hp hx
    obtain ⟨rfl, rfl⟩ := hp
    obtain ⟨rfl, rfl⟩ := hx
    have hno' : fromEpoch s k ≤ toEpoch (fromEpoch s k) (limitOf n) cur.num ∧ 2 ≤ cur.num := by
      constructor
      · by_contra hh; exact hno (Or.inl (by omega))
      · by_contra hh; exact hno (Or.inr (by omega))
    exact ⟨cur, m', _, hcur, Nat.le_of_not_lt h64, hno'.2, rfl, hno'.1, hm, Nat.le_of_not_lt hle, rfl, rfl⟩
  · rintro ⟨cur, m, upto, hcur, h64, h2, hto, hle, hm, hs, rfl, rfl⟩
    subst hto
    simp only [hcur]
    rw [if_neg (Nat.not_lt.mpr (Nat.le_trans (Nat.le_add_right _ _) h64)),
      if_neg (Nat.not_lt.mpr h64), if_neg (by omega)]
    unfold processRewards
    simp only [hm]
    rw [if_neg (Nat.not_lt.mpr (Nat.le_trans hs (hi.poolMax k))), if_neg (Nat.not_lt.mpr hs)]

/-! ### the invariant -/

theorem inv_init (cfg : Config) (p : Params) (h : Nat) : Inv (init cfg p h) := by
  refine ⟨OMap.sorted_nil, ?_, ?_, ?_, ?_⟩
  · intro k; simp [init, poolOf]
  · intro k e t h; simp [init] at h
  · intro k e t h; simp [init] at h
  · intro ev k e h; simp [init] at h

theorem inv_step {s s' : State} {c : Call} {r : Resp} (hi : Inv s) (hx : exec s c = .ok (s', r)) :
    Inv s' := by
  unfold exec at hx
  cases hm : c.msg with
  | recordParticipation ev w =>
    rw [hm] at hx
    obtain ⟨cur, e, t, t2, h1, _, h3, h4, h5, h6, h7, h8⟩ := record_ok hx
    have hte : t.epoch.num = e := by
      cases ht : s.tallies (c.sender, e) with
      | some t' =>
        rw [ht] at h3
        subst h3
        exact hi.key _ _ _ ht
      | none =>
        rw [ht] at h3
        rcases h4 with ⟨_, h4, _⟩ | ⟨h4, _⟩
        · subst h3; exact h4.symm
        · obtain ⟨t', ht'⟩ := hi.event _ _ _ h4
          rw [ht] at ht'
          simp at ht'
    have hts : OMap.Sorted t.participation := by
      cases ht : s.tallies (c.sender, e) with
      | some t' =>
        rw [ht] at h3
        subst h3
        exact hi.part _ _ _ ht
      | none =>
        rw [ht] at h3
        subst h3
        exact OMap.sorted_nil
    have htal : s'.tallies = s.tallies.set (c.sender, e) t2 := by rw [h8, hte]
    have hpools : s'.pools = s.pools := by rw [h8]
    refine ⟨by rw [hpools]; exact hi.pools, ?_, ?_, ?_, ?_⟩
    · intro k; unfold poolOf; rw [hpools]; exact hi.poolMax k
    · intro k e' t' ht'
      rw [htal, KV.set_apply] at ht'
      split at ht'
      · simp only [Option.some.injEq] at ht'
        subst ht'
        rw [h5]
        exact OMap.sorted_set hts _ _
      · exact hi.part _ _ _ ht'
    · intro k e' t' ht'
      rw [htal, KV.set_apply] at ht'
      split at ht'
      · rename_i hk
        simp only [Option.some.injEq] at ht'
        subst ht'
        simp only [Prod.mk.injEq] at hk
        rw [h6, hte, hk.2]
      · exact hi.key _ _ _ ht'
    · intro ev' k' e' hev'
      rw [htal]
      by_cases hk : (k', e') = (c.sender, e)
      · exact ⟨t2, by rw [KV.set_apply, if_pos hk]⟩
      · simp only [KV.set_apply, if_neg hk]
        rcases h4 with ⟨g1, g2, g3, _⟩ | ⟨g1, g2, _⟩
        · rw [g3, KV.set_apply] at hev'
          split at hev'
          · rename_i hk'
            simp only [Option.some.injEq] at hev'
            simp only [Prod.mk.injEq] at hk'
            exact absurd (by rw [hk'.2, ← hev', g2]) hk
          · exact hi.event _ _ _ hev'
        · rw [g2] at hev'
          exact hi.event _ _ _ hev'
  | addRewards k =>
    rw [hm] at hx
    obtain ⟨x, _, _, h3, _, rfl⟩ := add_ok.mp hx
    refine ⟨OMap.sorted_set hi.pools _ _, ?_, hi.part, hi.key, hi.event⟩
    intro k'
    rw [poolOf_eq]
    simp only [amt_set]
    split
    · exact h3
    · exact hi.poolMax k'
  | distributeRewards k n =>
    rw [hm] at hx
    obtain ⟨cur, m, upto, _, _, _, _, _, _, _, _, rfl⟩ := (distribute_ok hi).mp hx
    refine ⟨OMap.sorted_set hi.pools _ _, ?_, hi.part, hi.key, hi.event⟩
    intro k'
    rw [poolOf_eq]
    simp only [amt_set]
    split
    · exact Nat.le_trans (Nat.sub_le _ _) (hi.poolMax k)
    · exact hi.poolMax k'
  | updateParams p =>
    rw [hm] at hx
    obtain ⟨_, _, cur, _, ⟨_, rfl⟩ | ⟨_, rfl⟩⟩ := update_ok hx
    · exact ⟨hi.pools, hi.poolMax, hi.part, hi.key, hi.event⟩
    · exact ⟨hi.pools, hi.poolMax, hi.part, hi.key, hi.event⟩

theorem inv_reachable (cfg : Config) (p : Params) (h : Nat) (cs : List Call) :
    Inv (stateAfter cfg p h cs) :=
  runCalls_inv exec (P := Inv) (fun _ _ _ _ hi hx => inv_step hi hx) _ (inv_init cfg p h) cs

end Amp.Rewards
