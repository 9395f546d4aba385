import Verif.Std.Lemmas
import Mathlib.Algebra.Order.Field.Basic
import Mathlib.Algebra.Order.Field.Rat

/-!
# C01 - C08: thresholds, snapshots and polls

Polls quantified over here are exactly those a contract can hold: created from a snapshot taken with a
valid majority threshold, then subjected to any list of operations at any heights.
-/

namespace Amp.Std

open OMap

/-- A poll some contract can hold: created from a snapshot, followed by any history. -/
def ReachablePoll (p : Poll) : Prop :=
  ∃ n d th ps snap id expiry size ops,
    MajorityThreshold.ofPair n d = .ok th ∧ Snapshot.new th ps = .ok snap ∧
    p = (Poll.new id snap expiry size).run ops

/-- a concrete poll used for the non-vacuity checks: three workers, threshold 2/3, one vote cast -/
def examplePoll : Poll :=
  (Poll.new 7 ⟨2, OMap.ofList [(3, 1), (1, 1), (2, 1)]⟩ 100 2).run
    [.cast 5 1 [.succeededOnChain, .notFound]]

theorem examplePoll_reachable : ReachablePoll examplePoll :=
  ⟨2, 3, ⟨2, 3⟩, [(3, 1), (1, 1), (2, 1)], ⟨2, OMap.ofList [(3, 1), (1, 1), (2, 1)]⟩, 7, 100, 2,
    [.cast 5 1 [.succeededOnChain, .notFound]], by decide, by decide, rfl⟩

theorem Snapshot.majority {th : MajorityThreshold} {n d : Nat} {ps : List (Addr × Nat)} {s : Snapshot}
    (hth : MajorityThreshold.ofPair n d = .ok th) (h : Snapshot.new th ps = .ok s) :
    totalWeight ps < 2 * s.quorum ∧ s.quorum ≤ totalWeight ps ∧
    (∀ q, s.quorum ≤ q ↔ totalWeight ps * n ≤ q * d) := by
  obtain ⟨hn, hd, h1, h2, h3⟩ := MajorityThreshold.ofPair_ok hth
  obtain ⟨g1, g2, g3, g4, g5⟩ := Snapshot.new_ok h
  have hdpos : 0 < d := by omega
  have hs := @mulCeil_spec (totalWeight ps) n d hdpos
  unfold mulCeil at g3
  rw [hn, hd] at g3
  dsimp only at g3
  revert hs g3
  generalize (if totalWeight ps * n % d ≠ 0 then totalWeight ps * n / d + 1
    else totalWeight ps * n / d) = r
  intro g3 hs
  split at g3
  · simp only [Except.ok.injEq] at g3
    subst g3
    obtain ⟨hs1, hs2⟩ := hs
    refine ⟨?_, ?_, ?_⟩
    · by_contra hc
      have hc : 2 * s.quorum ≤ totalWeight ps := by omega
      have e1 : 2 * s.quorum * d ≤ totalWeight ps * d := Nat.mul_le_mul_right d hc
      have e2 : totalWeight ps * (d + 1) ≤ totalWeight ps * (2 * n) := Nat.mul_le_mul_left _ (by omega)
      have e3 : 2 * (totalWeight ps * n) ≤ 2 * (s.quorum * d) := Nat.mul_le_mul_left 2 hs1
      have e4 : 2 * s.quorum * d = 2 * (s.quorum * d) := by ring
      have e5 : totalWeight ps * (2 * n) = 2 * (totalWeight ps * n) := by ring
      have e6 : totalWeight ps * (d + 1) = totalWeight ps * d + totalWeight ps := by ring
      omega
    · exact hs2 _ (Nat.mul_le_mul_left _ h2)
    · intro q
      constructor
      · intro hq
        exact le_trans hs1 (Nat.mul_le_mul_right d hq)
      · intro hq
        exact hs2 q hq
  · simp at g3

theorem ReachablePoll.wf {p : Poll} (h : ReachablePoll p) : p.WF := by
  obtain ⟨n, d, th, ps, snap, id, e, sz, ops, h1, h2, rfl⟩ := h
  refine Poll.run_wf (Poll.new_wf _ ?_ _ _) ops
  rw [(Snapshot.new_ok h2).2.2.2.2]
  exact sorted_ofList _

theorem ReachablePoll.total_lt {p : Poll} (h : ReachablePoll p) :
    p.total < 2 * p.quorum ∧ p.total ≤ u256Max := by
  obtain ⟨n, d, th, ps, snap, id, e, sz, ops, h1, h2, rfl⟩ := h
  have hm := (Snapshot.majority h1 h2).1
  obtain ⟨g1, g2, g3, g4, g5⟩ := Snapshot.new_ok h2
  have hwf : (Poll.new id snap e sz).WF := Poll.new_wf _ (by rw [g5]; exact sorted_ofList _) _ _
  obtain ⟨_, f2, _, _, f5⟩ := Poll.run_frame hwf ops
  rw [total_eq_voters, f5, f2, ← total_eq_voters, Poll.new_total, g5]
  have := sumBy_ofList_le ps
  have hq : (Poll.new id snap e sz).quorum = snap.quorum := rfl
  omega

theorem ReachablePoll.run {p : Poll} (h : ReachablePoll p) (ops : List PollOp) :
    ReachablePoll (p.run ops) := by
  obtain ⟨n, d, th, ps, snap, id, e, sz, ops', h1, h2, rfl⟩ := h
  exact ⟨n, d, th, ps, snap, id, e, sz, ops' ++ ops, h1, h2, (runCalls_append _ _ _ _).symm⟩

/-! ### C01 -/

/-- C01: a pair is a threshold exactly when both parts are non-zero and it is at most one. -/
theorem C01_threshold_exact (n d : Nat) :
    (Threshold.tryFrom n d = .ok ⟨n, d⟩ ↔ n ≠ 0 ∧ d ≠ 0 ∧ n ≤ d) ∧
    (Threshold.tryFrom n d = .error .invalidParameter ↔ n = 0 ∨ d = 0) ∧
    (Threshold.tryFrom n d = .error .outOfInterval ↔ n ≠ 0 ∧ d ≠ 0 ∧ d < n) ∧
    (∀ t, Threshold.tryFrom n d = .ok t → t = ⟨n, d⟩) := by
  unfold Threshold.tryFrom
  refine ⟨?_, ?_, ?_, ?_⟩
  · split
    · simp_all
    · split
      · simp_all
      · split <;> simp_all
  · split
    · simp_all
    · split
      · simp_all
      · split <;> simp_all
  · split
    · simp_all
    · split
      · simp_all
      · split <;> simp_all
  · intro t
    split
    · simp
    · split
      · simp
      · split
        · simp
        · intro h; simp only [Except.ok.injEq] at h; exact h.symm

/-- C01: a pair is a majority threshold exactly when it is in the interval (1/2, 1]. -/
theorem C01_majority_exact (n d : Nat) :
    (MajorityThreshold.ofPair n d = .ok ⟨n, d⟩ ↔ 0 < n ∧ n ≤ d ∧ d < 2 * n) ∧
    (∀ t, MajorityThreshold.ofPair n d = .ok t → t = ⟨n, d⟩) ∧
    (MajorityThreshold.ofPair n d = .error .noMajority ↔ 0 < n ∧ n ≤ d ∧ 2 * n ≤ d) := by
  refine ⟨⟨?_, ?_⟩, ?_, ?_⟩
  · intro h
    obtain ⟨_, _, h1, h2, h3⟩ := MajorityThreshold.ofPair_ok h
    exact ⟨h1, h2, h3⟩
  · rintro ⟨h1, h2, h3⟩
    unfold MajorityThreshold.ofPair Threshold.tryFrom
    rw [if_neg (by omega), if_neg (by omega), if_neg (by omega)]
    simp only [MajorityThreshold.tryFrom]
    rw [if_neg (by omega)]
  · intro t h
    obtain ⟨h0, h1, _⟩ := MajorityThreshold.ofPair_ok h
    cases t; simp_all
  · unfold MajorityThreshold.ofPair Threshold.tryFrom
    split
    · rename_i e he
      split at he
      · simp only [Except.error.injEq] at he; subst he; simp; omega
      · split at he
        · simp only [Except.error.injEq] at he; subst he; simp; omega
        · split at he
          · simp only [Except.error.injEq] at he; subst he; simp; omega
          · simp at he
    · rename_i t ht
      split at ht
      · simp at ht
      split at ht
      · simp at ht
      split at ht
      · simp at ht
      simp only [Except.ok.injEq] at ht
      subst ht
      simp only [MajorityThreshold.tryFrom]
      split
      · simp; omega
      · simp; omega

example : MajorityThreshold.ofPair 3 5 = .ok ⟨3, 5⟩ ∧
    MajorityThreshold.ofPair 2 5 = .error .noMajority ∧
    MajorityThreshold.ofPair 2 4 = .error .noMajority := by decide

/-- C01: thresholds are compared as the rational numbers they stand for. -/
theorem C01_compare_rational (a b : Threshold) (ha : 0 < a.den) (hb : 0 < b.den) :
    (a.ge b = true ↔ (b.num : ℚ) / b.den ≤ (a.num : ℚ) / a.den) ∧
    (a.partialCmp b = .eq ↔ (b.num : ℚ) / b.den = (a.num : ℚ) / a.den) := by
  have ha' : (0 : ℚ) < a.den := by exact_mod_cast ha
  have hb' : (0 : ℚ) < b.den := by exact_mod_cast hb
  have key : b.num * a.den ≤ a.num * b.den ↔ (b.num : ℚ) / b.den ≤ (a.num : ℚ) / a.den := by
    rw [div_le_div_iff₀ hb' ha']
    exact_mod_cast Iff.rfl
  have key2 : a.num * b.den = b.num * a.den ↔ (b.num : ℚ) / b.den = (a.num : ℚ) / a.den := by
    rw [div_eq_div_iff hb'.ne' ha'.ne']
    constructor
    · intro h; exact_mod_cast h.symm
    · intro h; exact_mod_cast h.symm
  constructor
  · rw [← key]
    unfold Threshold.ge Threshold.partialCmp
    simp [Nat.compare_eq_lt]
  · rw [← key2]
    unfold Threshold.partialCmp
    exact Nat.compare_eq_eq

example : Threshold.ge ⟨2, 3⟩ ⟨4, 6⟩ = true ∧ Threshold.ge ⟨3, 5⟩ ⟨2, 3⟩ = false := by decide

/-! ### C02 -/

/-- C02: the quorum is the least integer whose ratio to the total weight reaches the threshold, it is a
strict majority of the total weight, and all participants together reach it. -/
theorem C02_quorum_exact {n d : Nat} {th : MajorityThreshold} {ps : List (Addr × Nat)} {s : Snapshot}
    (hth : MajorityThreshold.ofPair n d = .ok th) (h : Snapshot.new th ps = .ok s) :
    (∀ q, s.quorum ≤ q ↔ totalWeight ps * n ≤ q * d) ∧
    totalWeight ps < 2 * s.quorum ∧ s.quorum ≤ totalWeight ps ∧ 0 < s.quorum := by
  obtain ⟨h1, h2, h3⟩ := Snapshot.majority hth h
  exact ⟨h3, h1, h2, Nat.pos_of_ne_zero (Snapshot.new_ok h).2.2.2.1⟩

theorem totalWeight_pos {ps : List (Addr × Nat)} (hne : ps ≠ []) (hpos : ∀ e ∈ ps, 0 < e.2) :
    0 < totalWeight ps := by
  cases ps with
  | nil => exact absurd rfl hne
  | cons e t =>
    have := hpos e (by simp)
    simp only [totalWeight, List.map_cons, List.sum_cons]; omega

/-- C02: taking a snapshot of a non-empty list of non-zero weights never fails, as long as the weights
fit into the 256-bit accumulator. -/
theorem C02_snapshot_total {n d : Nat} {th : MajorityThreshold} {ps : List (Addr × Nat)}
    (hth : MajorityThreshold.ofPair n d = .ok th) (hne : ps ≠ []) (hpos : ∀ e ∈ ps, 0 < e.2)
    (hmax : totalWeight ps ≤ u256Max) :
    ∃ s, Snapshot.new th ps = .ok s := by
  obtain ⟨hn, hd, h1, h2, h3⟩ := MajorityThreshold.ofPair_ok hth
  have hT := totalWeight_pos hne hpos
  have hs := @mulCeil_spec (totalWeight ps) n d (by omega)
  obtain ⟨hs1, hs2⟩ := hs
  have hle := hs2 (totalWeight ps) (Nat.mul_le_mul_left _ h2)
  unfold Snapshot.new
  rw [if_neg hne, if_neg (by omega)]
  unfold mulCeil
  simp only
  rw [hn, hd, if_pos (by omega)]
  simp only
  rw [if_neg]
  · exact ⟨_, rfl⟩
  · intro h0
    rw [h0] at hs1
    have := Nat.mul_pos hT h1
    omega

/-- C02: everybody in the list is a participant; with distinct addresses nobody's weight is lost, so the
participants can reach the quorum together. -/
theorem C02_participants {th : MajorityThreshold} {n d : Nat} {ps : List (Addr × Nat)} {s : Snapshot}
    (hth : MajorityThreshold.ofPair n d = .ok th)
    (h : Snapshot.new th ps = .ok s) (hnd : (ps.map Prod.fst).Nodup) :
    (∀ a w, (a, w) ∈ ps ↔ s.participants.get? a = some w) ∧
    s.quorum ≤ sumBy (fun _ w => w) s.participants := by
  have hp := (Snapshot.new_ok h).2.2.2.2
  refine ⟨?_, ?_⟩
  · rw [hp]
    unfold OMap.ofList
    suffices H : ∀ (l : List (Addr × Nat)) (m : OMap Addr Nat), (l.map Prod.fst).Nodup →
        ∀ a w, (l.foldl (fun m e => m.set e.1 e.2) m).get? a = some w ↔
          (a, w) ∈ l ∨ (a ∉ l.map Prod.fst ∧ m.get? a = some w) by
      intro a w
      rw [H ps [] hnd a w]
      simp
    intro l
    induction l with
    | nil => intro m _ a w; simp
    | cons e t ih =>
      intro m hn a w
      simp only [List.map_cons, List.nodup_cons] at hn
      rw [List.foldl_cons, ih _ hn.2, get?_set]
      obtain ⟨k, x⟩ := e
      simp only [List.map_cons, List.mem_cons, Prod.mk.injEq, not_or]
      by_cases hak : a = k
      · subst hak
        simp only [if_true, true_and, Option.some.injEq, not_true_eq_false, false_and, or_false]
        constructor
        · rintro (h | ⟨_, h⟩)
          · exact Or.inr h
          · exact Or.inl h.symm
        · rintro (h | h)
          · exact Or.inr ⟨hn.1, h.symm⟩
          · exact Or.inl h
      · simp [hak]
  · rw [hp, sumBy_ofList_eq ps hnd]
    exact (Snapshot.majority hth h).2.1

example : ∃ s, Snapshot.new ⟨2, 3⟩ [(3, 1), (1, 1), (2, 1)] = .ok s ∧ s.quorum = 2 :=
  ⟨⟨2, [(1, 1), (2, 1), (3, 1)]⟩, by decide, rfl⟩

/-! ### C03 -/

theorem mem_voters_iff {p : Poll} (hp : p.WF) {a : Addr} :
    (∃ w, (a, w) ∈ p.voters) ↔ ∃ x, p.participation.get? a = some x := by
  unfold Poll.voters
  constructor
  · rintro ⟨w, h⟩
    obtain ⟨⟨k, x⟩, hx, he⟩ := List.mem_map.mp h
    simp only [Prod.mk.injEq] at he
    obtain ⟨rfl, rfl⟩ := he
    exact ⟨x, get?_of_mem hp.sorted hx⟩
  · rintro ⟨x, h⟩
    exact ⟨x.weight, List.mem_map.mpr ⟨(a, x), mem_of_get? h, rfl⟩⟩

/-- tallies of a reachable poll never overflow -/
theorem no_overflow {p : Poll} (h : ReachablePoll p) {a : Addr} {w : Nat} {vs : List Vote}
    (hw : p.participation.get? a = some ⟨w, none⟩) :
    (tallyAll p.tallies vs w).any Tallies.exceeds = false := by
  have hp := h.wf
  have hmax := h.total_lt.2
  rw [List.any_eq_false]
  intro t ht
  obtain ⟨i, hi⟩ := List.mem_iff_getElem?.mp ht
  rw [tallyAll_get] at hi
  have bound : ∀ v, p.votedWeight i v + w ≤ p.total := by
    intro v
    have h1 := sumBy_set_some (fun _ (x : Participation) => if votesFor i v x then x.weight else 0)
      hp.sorted ⟨w, some (List.replicate (i+1) v)⟩ hw
    have h2 := sumBy_set_some (fun _ (x : Participation) => x.weight)
      hp.sorted ⟨w, some (List.replicate (i+1) v)⟩ hw
    have h3 : sumBy (fun _ (x : Participation) => if votesFor i v x then x.weight else 0)
        (p.participation.set a ⟨w, some (List.replicate (i+1) v)⟩) ≤
        sumBy (fun _ (x : Participation) => x.weight)
        (p.participation.set a ⟨w, some (List.replicate (i+1) v)⟩) := by
      apply sumBy_le_of_le; intro e _; split <;> omega
    have h4 : votesFor i v ⟨w, some (List.replicate (i+1) v)⟩ = true := by simp [votesFor]
    have h5 : votesFor i v ⟨w, none⟩ = false := rfl
    simp only [h4, h5, if_true] at h1
    unfold Poll.votedWeight Poll.total
    simp only [Bool.false_eq_true, if_false] at h1 h2 h3
    omega
  have hle : ∀ v, t.get v ≤ u256Max := by
    intro v
    have hb := bound v
    split at hi
    · rename_i t0 v0 ht0 hv0
      simp only [Option.some.injEq] at hi
      rw [← hi, Tallies.get_tally, hp.exact i t0 ht0 v]
      split <;> omega
    · rename_i t0 ht0 hv0
      simp only [Option.some.injEq] at hi
      rw [← hi, hp.exact i t0 ht0 v]
      omega
    · simp at hi
  have e1 := hle .failedOnChain
  have e2 := hle .notFound
  have e3 := hle .succeededOnChain
  simp only [Tallies.get] at e1 e2 e3
  unfold Tallies.exceeds
  simp
  omega

/-- C03: a ballot is accepted exactly when the sender may vote, the poll is not expired, the ballot has
one vote per item, and the sender has not voted.  In particular the arithmetic never overflows. -/
theorem C03_cast_iff {p : Poll} (hr : ReachablePoll p) (h : Nat) (a : Addr) (vs : List Vote) :
    (∃ p', p.castVote h a vs = .ok p') ↔
      (∃ w, (a, w) ∈ p.voters) ∧ h < p.expiresAt ∧ vs.length = p.pollSize ∧ p.ballot a = none := by
  rw [Poll.castVote_eq_ok_iff, mem_voters_iff hr.wf]
  constructor
  · rintro ⟨w, h1, h2, h3, h4⟩
    exact ⟨⟨_, h1⟩, h2, h3, by simp [Poll.ballot, h1]⟩
  · rintro ⟨⟨⟨w, v⟩, h1⟩, h2, h3, h4⟩
    have hv : v = none := by simpa [Poll.ballot, h1] using h4
    subst hv
    exact ⟨w, h1, h2, h3, no_overflow hr h1⟩

/-- C03: the error returned names the first violated condition. -/
theorem C03_cast_errors {p : Poll} (hr : ReachablePoll p) (h : Nat) (a : Addr) (vs : List Vote) :
    (p.castVote h a vs = .error .notParticipant ↔ ¬ ∃ w, (a, w) ∈ p.voters) ∧
    (p.castVote h a vs = .error .pollExpired ↔ (∃ w, (a, w) ∈ p.voters) ∧ p.expiresAt ≤ h) ∧
    (p.castVote h a vs = .error .invalidVoteSize ↔
      (∃ w, (a, w) ∈ p.voters) ∧ h < p.expiresAt ∧ vs.length ≠ p.pollSize) ∧
    (p.castVote h a vs = .error .alreadyVoted ↔
      (∃ w, (a, w) ∈ p.voters) ∧ h < p.expiresAt ∧ vs.length = p.pollSize ∧ p.ballot a ≠ none) := by
  rw [mem_voters_iff hr.wf]
  have hno := @no_overflow p hr a
  unfold Poll.castVote Poll.ballot
  cases hg : p.participation.get? a with
  | none => simp
  | some part =>
    obtain ⟨w, v⟩ := part
    simp only [Option.bind_some, ge_iff_le]
    by_cases h1 : p.expiresAt ≤ h
    · simp [h1]
    · by_cases h2 : vs.length = p.pollSize
      · cases v with
        | none =>
          have := hno (vs := vs) hg
          simp [h1, h2, this]
        | some bs => simp [h1, h2]; omega
      · simp [h1, h2]; omega

/-- C03: an accepted ballot is recorded for the sender and changes nothing else. -/
theorem C03_cast_effect {p p' : Poll} (hr : ReachablePoll p) {h : Nat} {a : Addr} {vs : List Vote}
    (hc : p.castVote h a vs = .ok p') :
    (∀ b, p'.ballot b = if b = a then some vs else p.ballot b) ∧
    p'.voters = p.voters ∧ p'.status = p.status ∧ p'.quorum = p.quorum ∧
    p'.expiresAt = p.expiresAt ∧ p'.pollSize = p.pollSize ∧ p'.pollId = p.pollId := by
  refine ⟨Poll.castVote_ballot hc, Poll.castVote_voters hr.wf.sorted hc, ?_⟩
  obtain ⟨_, _, _, _, _, rfl⟩ := Poll.castVote_ok hc
  exact ⟨rfl, rfl, rfl, rfl, rfl⟩

example : ReachablePoll examplePoll ∧
    (∃ p', examplePoll.castVote 99 2 [.notFound, .notFound] = .ok p') ∧
    examplePoll.castVote 100 2 [.notFound, .notFound] = .error .pollExpired ∧
    examplePoll.castVote 6 1 [.notFound, .notFound] = .error .alreadyVoted :=
  ⟨examplePoll_reachable, ⟨_, rfl⟩, by decide, by decide⟩

/-! ### C04 -/

/-- C04: a recorded ballot survives every continuation unchanged. -/
theorem C04_ballot_immutable {p : Poll} (hr : ReachablePoll p) (ops : List PollOp) {a : Addr}
    {vs : List Vote} (hb : p.ballot a = some vs) : (p.run ops).ballot a = some vs := by
  have := Poll.run_induct hr.wf (R := fun x y => ∀ vs, x.ballot a = some vs → y.ballot a = some vs)
    (fun _ _ h => h) (fun _ _ _ h1 h2 vs h => h2 vs (h1 vs h))
    (by
      intro q q' op u hq hx vs hv
      rcases Poll.exec_ballot hx a with h | ⟨h, _⟩
      · rw [h]; exact hv
      · rw [h] at hv; simp at hv) ops
  exact this vs hb

/-- C04: a ballot is recorded only because its owner cast it before expiry. -/
theorem C04_ballot_provenance {n d : Nat} {th : MajorityThreshold} {ps : List (Addr × Nat)}
    {snap : Snapshot} (hth : MajorityThreshold.ofPair n d = .ok th)
    (hs : Snapshot.new th ps = .ok snap) (id expiry size : Nat) (ops : List PollOp) {a : Addr}
    {vs : List Vote} (hb : ((Poll.new id snap expiry size).run ops).ballot a = some vs) :
    (∃ h, h < expiry ∧ PollOp.cast h a vs ∈ ops) ∧ vs.length = size ∧ ∃ w, (a, w) ∈ ps := by
  have hrch : ∀ ops, ReachablePoll ((Poll.new id snap expiry size).run ops) :=
    fun ops => ⟨n, d, th, ps, snap, id, expiry, size, ops, hth, hs, rfl⟩
  have hfr := Poll.run_frame (p := Poll.new id snap expiry size) (hrch []).wf ops
  refine ⟨?_, ?_, ?_⟩
  · have hexp : ∀ p : Poll, p.WF → p.expiresAt = expiry → ∀ ops, (p.run ops).ballot a = some vs →
        p.ballot a = some vs ∨ ∃ h, h < expiry ∧ PollOp.cast h a vs ∈ ops := by
      intro p hp he ops
      induction ops generalizing p with
      | nil => intro h; exact Or.inl h
      | cons op ops ih =>
        intro h
        unfold Poll.run at h ih
        rw [runCalls_cons] at h
        cases hx : p.exec op with
        | error e =>
          rw [hx] at h
          rcases ih p hp he h with h | ⟨ht, h1, h2⟩
          · exact Or.inl h
          · exact Or.inr ⟨ht, h1, List.mem_cons_of_mem _ h2⟩
        | ok x =>
          obtain ⟨q, u⟩ := x
          rw [hx] at h
          have hq := Poll.exec_wf hp hx
          have hf := Poll.exec_frame hp hx
          rcases ih q hq (by rw [hf.2.2.1, he]) h with h | ⟨ht, h1, h2⟩
          · rcases Poll.exec_ballot hx a with h' | ⟨_, ht, vs', h1, h2, h3⟩
            · exact Or.inl (by rw [← h']; exact h)
            · rw [h3] at h
              simp only [Option.some.injEq] at h
              subst h
              exact Or.inr ⟨ht, by omega, by rw [h1]; simp⟩
          · exact Or.inr ⟨ht, h1, List.mem_cons_of_mem _ h2⟩
    rcases hexp _ (hrch []).wf rfl ops hb with h | h
    · have h' : (Poll.new id snap expiry size).ballot a = some vs := h
      rw [Poll.new_ballot] at h'; simp at h'
    · exact h
  · have := (hrch ops).wf.ballots a vs hb
    rw [hfr.2.2.2.1] at this
    exact this
  · obtain ⟨x, hx⟩ : ∃ x, ((Poll.new id snap expiry size).run ops).participation.get? a = some x := by
      unfold Poll.ballot at hb
      cases hg : ((Poll.new id snap expiry size).run ops).participation.get? a with
      | none => rw [hg] at hb; simp at hb
      | some x => exact ⟨x, rfl⟩
    obtain ⟨w, hw⟩ := (mem_voters_iff (hrch ops).wf).mpr ⟨x, hx⟩
    rw [hfr.2.2.2.2] at hw
    obtain ⟨⟨k, y⟩, hy, he⟩ := List.mem_map.mp hw
    simp only [Poll.new, List.mem_map] at hy
    obtain ⟨e, he1, he2⟩ := hy
    rw [(Snapshot.new_ok hs).2.2.2.2] at he1
    have hsub : ∀ (l : List (Addr × Nat)) (m : OMap Addr Nat) e,
        e ∈ l.foldl (fun m e => m.set e.1 e.2) m → e ∈ l ∨ e ∈ m := by
      intro l
      induction l with
      | nil => intro m e h; exact Or.inr h
      | cons z t ih =>
        intro m e h
        rcases ih _ e h with h | h
        · exact Or.inl (List.mem_cons_of_mem _ h)
        · rcases mem_set h with h | h
          · exact Or.inl (by rw [h]; simp)
          · exact Or.inr h
    rcases hsub ps [] e he1 with h | h
    · simp only [Prod.mk.injEq] at he he2
      refine ⟨e.2, ?_⟩
      rw [← he.1, ← he2.1]
      exact h
    · simp at h

/-- C04: voters, weights, quorum, size and expiry are fixed at creation. -/
theorem C04_fixed_data {p : Poll} (hr : ReachablePoll p) (ops : List PollOp) :
    (p.run ops).pollId = p.pollId ∧ (p.run ops).quorum = p.quorum ∧
    (p.run ops).expiresAt = p.expiresAt ∧ (p.run ops).pollSize = p.pollSize ∧
    (p.run ops).voters = p.voters := Poll.run_frame hr.wf ops

example : examplePoll.ballot 1 = some [.succeededOnChain, .notFound] ∧ examplePoll.ballot 2 = none := by
  decide

/-! ### C05 -/

/-- C05: at any time and for every item and option, the stored tally is exactly the total weight of the
participants whose recorded ballot has that option at that item; there is one tally per item. -/
theorem C05_tally_exact {p : Poll} (hr : ReachablePoll p) :
    p.tallies.length = p.pollSize ∧
    ∀ i t, p.tallies[i]? = some t → ∀ v, t.get v = p.votedWeight i v :=
  ⟨hr.wf.size, hr.wf.exact⟩

example : examplePoll.votedWeight 0 .succeededOnChain = 1 ∧ examplePoll.votedWeight 1 .notFound = 1 ∧
    examplePoll.votedWeight 1 .failedOnChain = 0 := by decide

/-! ### C06 -/

/-- C06: two different options never both reach the quorum. -/
theorem C06_unique {p : Poll} (hr : ReachablePoll p) (i : Nat) {v v' : Vote}
    (h : p.quorum ≤ p.votedWeight i v) (h' : p.quorum ≤ p.votedWeight i v') : v = v' := by
  by_contra hne
  have := votedWeight_add_le_total p i hne
  have := hr.total_lt.1
  omega

/-- C06: the reported consensus is the option with quorum weight, whatever the order of examination. -/
theorem C06_consensus_iff {p : Poll} (hr : ReachablePoll p) {i : Nat} (hi : i < p.pollSize) (v : Vote) :
    p.consensus i = .ok (some v) ↔ p.quorum ≤ p.votedWeight i v :=
  Poll.consensus_iff hr.wf hr.total_lt.1 hi v

/-- C06: there is no consensus exactly when no option has quorum weight; outside the poll size the
query is an error. -/
theorem C06_no_consensus_iff {p : Poll} (hr : ReachablePoll p) (i : Nat) :
    (i < p.pollSize → (p.consensus i = .ok none ↔ ∀ v, p.votedWeight i v < p.quorum)) ∧
    (p.pollSize ≤ i → p.consensus i = .error .messageIndexOutOfBounds) := by
  refine ⟨fun hi => Poll.consensus_none_iff hr.wf hi, ?_⟩
  intro hi
  unfold Poll.consensus
  rw [List.getElem?_eq_none (by rw [hr.wf.size]; exact hi)]

/-- C06: a consensus, once reached, is kept by every continuation. -/
theorem C06_stable {p : Poll} (hr : ReachablePoll p) (ops : List PollOp) {i : Nat} {v : Vote}
    (h : p.consensus i = .ok (some v)) : (p.run ops).consensus i = .ok (some v) := by
  have hi : i < p.pollSize := by
    by_contra hc
    rw [(C06_no_consensus_iff hr i).2 (by omega)] at h
    simp at h
  have hf := Poll.run_frame hr.wf ops
  rw [C06_consensus_iff hr hi] at h
  rw [C06_consensus_iff (hr.run ops) (by rw [hf.2.2.2.1]; exact hi), hf.2.1]
  refine le_trans h ?_
  exact Poll.run_induct hr.wf (R := fun a b => a.votedWeight i v ≤ b.votedWeight i v)
    (fun _ => Nat.le_refl _) (fun _ _ _ => Nat.le_trans)
    (fun q q' op u hq hx => Poll.exec_votedWeight_mono hq hx i v) ops

example : (examplePoll.run [.cast 9 3 [.succeededOnChain, .failedOnChain]]).consensus 0 =
    .ok (some .succeededOnChain) ∧
    (examplePoll.run [.cast 9 3 [.succeededOnChain, .failedOnChain]]).consensus 1 = .ok none := by
  decide

/-! ### C07 -/

/-- C07: finishing succeeds exactly when the poll is in progress and has expired; it changes only the
status. -/
theorem C07_finish_iff (p : Poll) (h : Nat) :
    (p.finish h = .ok { p with status := .finished } ↔ p.status = .inProgress ∧ p.expiresAt ≤ h) ∧
    (∀ p', p.finish h = .ok p' → p' = { p with status := .finished }) ∧
    (p.finish h = .error .pollNotInProgress ↔ p.status = .finished) ∧
    (p.finish h = .error .pollNotEnded ↔ p.status = .inProgress ∧ h < p.expiresAt) := by
  unfold Poll.finish
  cases hs : p.status
  · by_cases h1 : h < p.expiresAt
    · simp [h1]
    · simp [h1]; omega
  · simp

theorem exec_noop_of_finished {p : Poll} (hf : p.status = .finished) {op : PollOp}
    (hh : p.expiresAt ≤ op.height) : ∀ q u, p.exec op ≠ .ok (q, u) := by
  intro q u hx
  rcases Poll.exec_ok hx with ⟨ht, a, vs, rfl, hc⟩ | ⟨ht, rfl, hc⟩
  · obtain ⟨_, _, h2, _⟩ := Poll.castVote_ok hc
    simp only [PollOp.height] at hh; omega
  · have := (Poll.finish_ok hc).1
    rw [hf] at this; simp at this

/-- C07: when block heights do not decrease, nothing about a poll changes after it was finished: no
ballot is accepted, it can not be finished again, and its result is final. -/
theorem C07_finished_is_final {p q : Poll} (_hr : ReachablePoll p) {h : Nat} {ops : List PollOp}
    (hfin : p.finish h = .ok q) (hmono : heightsOk (.finish h :: ops)) : q.run ops = q := by
  obtain ⟨h1, h2, rfl⟩ := Poll.finish_ok hfin
  have hall : ∀ op ∈ ops, p.expiresAt ≤ op.height := by
    intro op hop
    have := (List.pairwise_cons.mp hmono).1 op.height (List.mem_map_of_mem hop)
    simp only [PollOp.height] at this
    exact le_trans h2 this
  clear hmono hfin h2 h1
  unfold Poll.run
  induction ops with
  | nil => rfl
  | cons op ops ih =>
    rw [runCalls_cons]
    have hno := exec_noop_of_finished (p := { p with status := .finished }) rfl
      (op := op) (hall op (by simp))
    have : commit { p with status := PollStatus.finished }
        (({ p with status := PollStatus.finished } : Poll).exec op) = { p with status := .finished } := by
      cases hx : ({ p with status := PollStatus.finished } : Poll).exec op with
      | error e => rfl
      | ok x => exact absurd hx (hno x.1 x.2)
    rw [this]
    exact ih (fun op hop => hall op (List.mem_cons_of_mem _ hop))

example : (∃ q, examplePoll.finish 100 = .ok q) ∧ examplePoll.finish 99 = .error .pollNotEnded ∧
    heightsOk [.finish 100, .cast 100 2 [.notFound, .notFound], .finish 101] :=
  ⟨⟨_, rfl⟩, by decide, by unfold heightsOk; decide⟩

/-! ### C08 -/

/-- C08: the results reported for a poll are, item by item, the options holding quorum weight. -/
theorem C08_results {p : Poll} (hr : ReachablePoll p) :
    p.state.pollId = p.pollId ∧ p.state.results.length = p.pollSize ∧
    ∀ i, i < p.pollSize → ∀ v, p.state.results[i]? = some (some v) ↔ p.quorum ≤ p.votedWeight i v := by
  refine ⟨rfl, by simp [Poll.state, hr.wf.size], ?_⟩
  intro i hi v
  rw [← C06_consensus_iff hr hi v]
  unfold Poll.state Poll.consensus
  simp only [List.getElem?_map]
  cases hg : p.tallies[i]? with
  | none => simp
  | some t => simp

theorem votedConsensus_iff (vs : List Vote) (rs : List (Option Vote)) :
    votedConsensus vs rs = true ↔ ∀ (i : Nat) v r, vs[i]? = some v → rs[i]? = some (some r) → v = r := by
  unfold votedConsensus
  rw [List.all_eq_true]
  constructor
  · intro h i v r hv hr
    have hz : (vs.zip rs)[i]? = some (v, some r) := by
      rw [List.getElem?_zip_eq_some]; exact ⟨hv, hr⟩
    have := h (v, some r) (List.mem_of_getElem? hz)
    simpa using this
  · rintro h ⟨v, r⟩ hx
    obtain ⟨i, hi⟩ := List.mem_iff_getElem?.mp hx
    rw [List.getElem?_zip_eq_some] at hi
    simp only at hi
    cases r with
    | none => simp
    | some r => have := h i v r hi.1 hi.2; simp [this]

/-- C08: the consensus participants are exactly the addresses whose recorded ballot agrees with every
item that has a result, each listed once, in ascending order. -/
theorem C08_consensus_participants {p : Poll} (hr : ReachablePoll p) :
    (∀ a, a ∈ p.state.consensusParticipants ↔
      ∃ vs, p.ballot a = some vs ∧
        ∀ (i : Nat) v r, vs[i]? = some v → p.quorum ≤ p.votedWeight i r → v = r) ∧
    p.state.consensusParticipants.Pairwise (· < ·) := by
  have hres := (C08_results hr).2.2
  constructor
  · intro a
    unfold Poll.state
    simp only [List.mem_filterMap]
    constructor
    · rintro ⟨⟨k, x⟩, hx, he⟩
      simp only [Option.bind_eq_some_iff] at he
      obtain ⟨vs, hvs, he⟩ := he
      split at he
      · rename_i hvc
        simp only [Option.some.injEq] at he
        subst he
        refine ⟨vs, ?_, ?_⟩
        · unfold Poll.ballot
          rw [get?_of_mem hr.wf.sorted hx]
          exact hvs
        · intro i v r hi hq
          have hlen : i < p.pollSize := by
            have := hr.wf.ballots k vs (by
              unfold Poll.ballot; rw [get?_of_mem hr.wf.sorted hx]; exact hvs)
            have h2 : i < vs.length := by
              by_contra hc
              rw [List.getElem?_eq_none (by omega)] at hi; simp at hi
            omega
          refine (votedConsensus_iff _ _).mp hvc i v r hi ?_
          exact (hres i hlen r).mpr hq
      · simp at he
    · rintro ⟨vs, hvs, hall⟩
      unfold Poll.ballot at hvs
      rw [Option.bind_eq_some_iff] at hvs
      obtain ⟨x, hx, hvs⟩ := hvs
      refine ⟨(a, x), mem_of_get? hx, ?_⟩
      simp only [hvs, Option.bind_some]
      rw [if_pos]
      rw [votedConsensus_iff]
      intro i v r hi hri
      have hlen : i < p.pollSize := by
        have := hr.wf.ballots a vs (by unfold Poll.ballot; rw [hx]; exact hvs)
        have h2 : i < vs.length := by
          by_contra hc
          rw [List.getElem?_eq_none (by omega)] at hi; simp at hi
        omega
      exact hall i v r hi ((hres i hlen r).mp hri)
  · unfold Poll.state
    simp only
    refine List.Pairwise.filterMap _ ?_ hr.wf.sorted
    intro x y hxy b hb c hc
    simp only [Option.bind_eq_some_iff] at hb hc
    obtain ⟨_, _, hb⟩ := hb
    obtain ⟨_, _, hc⟩ := hc
    split at hb <;> simp at hb
    split at hc <;> simp at hc
    rw [← hb, ← hc]; exact hxy

example : (examplePoll.run [.cast 9 3 [.succeededOnChain, .failedOnChain],
    .cast 9 2 [.notFound, .notFound]]).state.consensusParticipants = [1] := by decide

end Amp.Std
