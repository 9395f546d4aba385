import Verif.Std.Spec
import Mathlib.Tactic.Ring

namespace Amp.Std

open OMap

/-! ### arithmetic -/

theorem mulCeil_spec {x n d : Nat} (hd : 0 < d) :
    (if x * n % d ≠ 0 then x * n / d + 1 else x * n / d) * d ≥ x * n ∧
    ∀ q, q * d ≥ x * n → (if x * n % d ≠ 0 then x * n / d + 1 else x * n / d) ≤ q := by
  have h := Nat.div_add_mod (x * n) d
  have hm := Nat.mod_lt (x * n) hd
  constructor
  · split
    · have : (x * n / d + 1) * d = d * (x * n / d) + d := by ring_nf
      omega
    · rename_i h0
      have h0 : x * n % d = 0 := by omega
      have : (x * n / d) * d = d * (x * n / d) := by ring_nf
      omega
  · intro q hq
    split
    · rename_i h0
      by_contra hlt
      have hlt : q ≤ x * n / d := by omega
      have := Nat.mul_le_mul_left d hlt
      have h2 : q * d = d * q := by ring_nf
      omega
    · rename_i h0
      have h0 : x * n % d = 0 := by omega
      by_contra hlt
      have hlt : q + 1 ≤ x * n / d := by omega
      have := Nat.mul_le_mul_left d hlt
      have h2 : q * d = d * q := by ring_nf
      have h3 : d * (q + 1) = d * q + d := by ring_nf
      omega

/-! ### tallies -/

theorem Tallies.get_tally (t : Tallies) (v v' : Vote) (w : Nat) :
    (t.tally v w).get v' = t.get v' + (if v' = v then w else 0) := by
  cases v <;> cases v' <;> simp [Tallies.tally, Tallies.get]

theorem tallyAll_length (ts : List Tallies) (vs : List Vote) (w : Nat) :
    (tallyAll ts vs w).length = ts.length := by
  induction ts generalizing vs with
  | nil => cases vs <;> rfl
  | cons t ts ih => cases vs with
    | nil => rfl
    | cons v vs => simp [tallyAll, ih]

theorem tallyAll_get (ts : List Tallies) (vs : List Vote) (w : Nat) (i : Nat) :
    (tallyAll ts vs w)[i]? = match ts[i]?, vs[i]? with
      | some t, some v => some (t.tally v w)
      | some t, none => some t
      | none, _ => none := by
  induction ts generalizing vs i with
  | nil => cases vs <;> simp [tallyAll]
  | cons t ts ih => cases vs with
    | nil => cases h : (t :: ts)[i]? <;> simp [tallyAll, h]
    | cons v vs => cases i with
      | zero => simp [tallyAll]
      | succ i => simp [tallyAll, ih]

theorem Tallies.consensus_eq_some {t : Tallies} {q : Nat} {v : Vote} (h : t.consensus q = some v) :
    q ≤ t.get v := by
  have := List.find?_some h
  simpa using this

theorem Tallies.consensus_eq_none {t : Tallies} {q : Nat} :
    t.consensus q = none ↔ ∀ v, t.get v < q := by
  unfold Tallies.consensus voteOrder
  rw [List.find?_eq_none]
  constructor
  · intro h v
    have := h v (by cases v <;> simp)
    simpa using this
  · intro h v _
    have := h v
    simpa using this

/-! ### sums over voters -/

theorem votedWeight_le_total (p : Poll) (i : Nat) (v : Vote) : p.votedWeight i v ≤ p.total := by
  apply sumBy_le_of_le
  intro e _
  split <;> omega

theorem votedWeight_add_le_total (p : Poll) (i : Nat) {v v' : Vote} (h : v ≠ v') :
    p.votedWeight i v + p.votedWeight i v' ≤ p.total := by
  unfold Poll.votedWeight Poll.total
  rw [← sumBy_add]
  apply sumBy_le_of_le
  intro e _
  by_cases h1 : votesFor i v e.2 = true <;> by_cases h2 : votesFor i v' e.2 = true
  · exfalso
    unfold votesFor at h1 h2
    split at h1
    · simp at h1
    · rename_i vs hvs
      rw [hvs] at h2
      simp only [decide_eq_true_eq] at h1 h2
      rw [h1] at h2
      exact h (Option.some.inj h2)
  all_goals simp [h1, h2]

/-! ### the poll invariant -/

/-- What every poll created by `Poll.new` from a snapshot satisfies at all times. -/
structure Poll.WF (p : Poll) : Prop where
  sorted : Sorted p.participation
  size : p.tallies.length = p.pollSize
  ballots : ∀ a vs, p.ballot a = some vs → vs.length = p.pollSize
  exact : ∀ i t, p.tallies[i]? = some t → ∀ v, t.get v = p.votedWeight i v

theorem ofList_get?_of_mem_sorted {l : OMap Addr Nat} (f : Nat → Participation) (a : Addr) :
    get? (l.map (fun e => (e.1, f e.2))) a = (l.get? a).map f := by
  induction l with
  | nil => rfl
  | cons e t ih =>
    obtain ⟨k, v⟩ := e
    simp only [List.map_cons, get?_cons, ih]
    split <;> rfl

theorem Poll.new_ballot (id : Nat) (s : Snapshot) (e n : Nat) (a : Addr) :
    (Poll.new id s e n).ballot a = none := by
  unfold Poll.ballot Poll.new
  simp only
  rw [ofList_get?_of_mem_sorted (fun w => ⟨w, none⟩)]
  cases s.participants.get? a <;> rfl

theorem Poll.new_votedWeight (id : Nat) (s : Snapshot) (e n : Nat) (i : Nat) (v : Vote) :
    (Poll.new id s e n).votedWeight i v = 0 := by
  unfold Poll.votedWeight Poll.new
  simp only
  induction s.participants with
  | nil => rfl
  | cons x t ih =>
    simp only [List.map_cons, sumBy_cons, ih]
    simp [votesFor]

theorem Poll.new_total (id : Nat) (s : Snapshot) (e n : Nat) :
    (Poll.new id s e n).total = sumBy (fun _ w => w) s.participants := by
  unfold Poll.total Poll.new
  simp only
  induction s.participants with
  | nil => rfl
  | cons x t ih => simp only [List.map_cons, sumBy_cons, ih]

theorem Poll.new_sorted (id : Nat) {s : Snapshot} (hs : Sorted s.participants) (e n : Nat) :
    Sorted (Poll.new id s e n).participation := by
  unfold Poll.new
  simp only
  exact List.Pairwise.map _ (fun a b h => h) hs

theorem Poll.new_wf (id : Nat) {s : Snapshot} (hs : Sorted s.participants) (e n : Nat) :
    (Poll.new id s e n).WF where
  sorted := Poll.new_sorted id hs e n
  size := by simp [Poll.new]
  ballots := by intro a vs h; rw [Poll.new_ballot] at h; simp at h
  exact := by
    intro i t ht v
    rw [Poll.new_votedWeight]
    simp only [Poll.new, List.getElem?_replicate] at ht
    split at ht
    · simp only [Option.some.injEq] at ht
      subst ht
      cases v <;> rfl
    · simp at ht

/-- Everything a successful `castVote` tells us. -/
theorem Poll.castVote_ok {p p' : Poll} {h : Nat} {a : Addr} {vs : List Vote}
    (hc : p.castVote h a vs = .ok p') :
    ∃ w, p.participation.get? a = some ⟨w, none⟩ ∧ h < p.expiresAt ∧ vs.length = p.pollSize ∧
      (tallyAll p.tallies vs w).any Tallies.exceeds = false ∧
      p' = { p with
        tallies := tallyAll p.tallies vs w
        participation := p.participation.set a ⟨w, some vs⟩ } := by
  unfold Poll.castVote at hc
  split at hc
  · simp at hc
  · rename_i part hpart
    obtain ⟨w, vote⟩ := part
    simp only at hc
    split at hc
    · simp at hc
    · rename_i h1
      split at hc
      · simp at hc
      · rename_i h2
        split at hc
        · simp at hc
        · rename_i h3
          split at hc
          · simp at hc
          · rename_i h4
            have hv : vote = none := by
              cases vote
              · rfl
              · simp at h3
            subst hv
            refine ⟨w, hpart, by omega, by omega, ?_, ?_⟩
            · cases hh : (tallyAll p.tallies vs w).any Tallies.exceeds
              · rfl
              · exact absurd hh h4
            · simp only [Except.ok.injEq] at hc
              exact hc.symm

theorem Poll.castVote_eq_ok_iff {p : Poll} {h : Nat} {a : Addr} {vs : List Vote} :
    (∃ p', p.castVote h a vs = .ok p') ↔
      ∃ w, p.participation.get? a = some ⟨w, none⟩ ∧ h < p.expiresAt ∧ vs.length = p.pollSize ∧
        (tallyAll p.tallies vs w).any Tallies.exceeds = false := by
  constructor
  · rintro ⟨p', hp⟩
    obtain ⟨w, h1, h2, h3, h4, _⟩ := Poll.castVote_ok hp
    exact ⟨w, h1, h2, h3, h4⟩
  · rintro ⟨w, h1, h2, h3, h4⟩
    refine ⟨{ p with
        tallies := tallyAll p.tallies vs w
        participation := p.participation.set a ⟨w, some vs⟩ }, ?_⟩
    unfold Poll.castVote
    rw [h1]
    simp only [Option.isSome_none]
    rw [if_neg (by omega), if_neg (by omega), if_neg (by simp), if_neg (by simp [h4])]

theorem Poll.castVote_ballot {p p' : Poll} {h : Nat} {a : Addr} {vs : List Vote}
    (hc : p.castVote h a vs = .ok p') (b : Addr) :
    p'.ballot b = if b = a then some vs else p.ballot b := by
  obtain ⟨w, h1, h2, h3, h4, rfl⟩ := Poll.castVote_ok hc
  unfold Poll.ballot
  simp only [get?_set]
  split <;> rfl

theorem Poll.castVote_votedWeight {p p' : Poll} (hs : Sorted p.participation) {h : Nat} {a : Addr}
    {vs : List Vote} (hc : p.castVote h a vs = .ok p') :
    ∃ w, p.participation.get? a = some ⟨w, none⟩ ∧
      p'.tallies = tallyAll p.tallies vs w ∧
      ∀ i v, p'.votedWeight i v = p.votedWeight i v + (if vs[i]? = some v then w else 0) := by
  obtain ⟨w, h1, h2, h3, h4, rfl⟩ := Poll.castVote_ok hc
  refine ⟨w, h1, rfl, ?_⟩
  intro i v
  have := sumBy_set_some (fun _ (x : Participation) => if votesFor i v x then x.weight else 0) hs
    ⟨w, some vs⟩ h1
  simp only [votesFor, decide_eq_true_eq] at this
  unfold Poll.votedWeight
  simp only [votesFor] at this ⊢
  simpa using this

theorem Poll.castVote_voters {p p' : Poll} (hs : Sorted p.participation) {h : Nat} {a : Addr}
    {vs : List Vote} (hc : p.castVote h a vs = .ok p') : p'.voters = p.voters := by
  obtain ⟨w, h1, h2, h3, h4, rfl⟩ := Poll.castVote_ok hc
  unfold Poll.voters
  simp only
  generalize p.participation = m at *
  clear h4 hc
  induction m with
  | nil => simp at h1
  | cons e t ih =>
    obtain ⟨k', v'⟩ := e
    rw [get?_cons] at h1
    unfold OMap.set
    by_cases hk : a = k'
    · subst hk
      simp only [if_true, Option.some.injEq] at h1
      subst h1
      simp
    · rw [if_neg hk] at h1
      have hlt := hs.head_lt _ (mem_of_get? h1)
      simp only at hlt
      rw [if_neg (not_lt.mpr (le_of_lt hlt)), if_neg hk]
      simp [ih hs.tail h1]

theorem total_eq_voters (p : Poll) : p.total = (p.voters.map Prod.snd).sum := by
  unfold Poll.total Poll.voters sumBy
  simp [List.map_map, Function.comp_def]

theorem Poll.castVote_wf {p p' : Poll} (hp : p.WF) {h : Nat} {a : Addr} {vs : List Vote}
    (hc : p.castVote h a vs = .ok p') : p'.WF := by
  obtain ⟨w0, g1, g2, g3⟩ := Poll.castVote_votedWeight hp.sorted hc
  have hball := Poll.castVote_ballot hc
  obtain ⟨w, h1, h2, h3, h4, hp'⟩ := Poll.castVote_ok hc
  rw [h1] at g1
  simp only [Option.some.injEq, Participation.mk.injEq, and_true] at g1
  subst g1
  refine ⟨?_, ?_, ?_, ?_⟩
  · rw [hp']; exact sorted_set hp.sorted _ _
  · rw [hp']; simp only [tallyAll_length]; exact hp.size
  · intro b bs hb
    rw [hball] at hb
    have hsz : p'.pollSize = p.pollSize := by rw [hp']
    rw [hsz]
    split at hb
    · simp only [Option.some.injEq] at hb; rw [← hb]; exact h3
    · exact hp.ballots b bs hb
  · intro i t ht v
    rw [g2, tallyAll_get] at ht
    rw [g3]
    split at ht
    · rename_i t0 v0 ht0 hv0
      simp only [Option.some.injEq] at ht
      rw [← ht, Tallies.get_tally, hp.exact i t0 ht0 v, hv0]
      simp only [Option.some.injEq]
      congr 1
      by_cases hvv : v = v0
      · simp [hvv]
      · simp [hvv, Ne.symm hvv]
    · rename_i t0 ht0 hv0
      simp only [Option.some.injEq] at ht
      rw [← ht, hp.exact i t0 ht0 v, hv0]
      simp
    · simp at ht

theorem Poll.finish_ok {p p' : Poll} {h : Nat} (hf : p.finish h = .ok p') :
    p.status = .inProgress ∧ p.expiresAt ≤ h ∧ p' = { p with status := .finished } := by
  unfold Poll.finish at hf
  split at hf
  · simp at hf
  · rename_i h1
    split at hf
    · simp at hf
    · rename_i h2
      simp only [Except.ok.injEq] at hf
      refine ⟨?_, by omega, hf.symm⟩
      cases hst : p.status
      · rfl
      · exact absurd hst h1

theorem Poll.finish_wf {p p' : Poll} (hp : p.WF) {h : Nat} (hf : p.finish h = .ok p') : p'.WF := by
  obtain ⟨_, _, rfl⟩ := Poll.finish_ok hf
  exact ⟨hp.sorted, hp.size, hp.ballots, hp.exact⟩

theorem Poll.exec_ok {p p' : Poll} {op : PollOp} {u : Unit} (h : p.exec op = .ok (p', u)) :
    (∃ ht a vs, op = .cast ht a vs ∧ p.castVote ht a vs = .ok p') ∨
    (∃ ht, op = .finish ht ∧ p.finish ht = .ok p') := by
  cases op with
  | cast ht a vs =>
    left
    refine ⟨ht, a, vs, rfl, ?_⟩
    simp only [Poll.exec] at h
    cases hc : p.castVote ht a vs with
    | error e => rw [hc] at h; simp [Except.map] at h
    | ok q => rw [hc] at h; simp only [Except.map, Except.ok.injEq, Prod.mk.injEq, and_true] at h; rw [h]
  | finish ht =>
    right
    refine ⟨ht, rfl, ?_⟩
    simp only [Poll.exec] at h
    cases hc : p.finish ht with
    | error e => rw [hc] at h; simp [Except.map] at h
    | ok q => rw [hc] at h; simp only [Except.map, Except.ok.injEq, Prod.mk.injEq, and_true] at h; rw [h]

theorem Poll.exec_wf {p p' : Poll} {op : PollOp} {u : Unit} (hp : p.WF)
    (h : p.exec op = .ok (p', u)) : p'.WF := by
  rcases Poll.exec_ok h with ⟨_, _, _, _, hc⟩ | ⟨_, _, hc⟩
  · exact Poll.castVote_wf hp hc
  · exact Poll.finish_wf hp hc

theorem Poll.run_wf {p : Poll} (hp : p.WF) (ops : List PollOp) : (p.run ops).WF :=
  runCalls_inv _ (fun _ _ _ _ hs h => Poll.exec_wf hs h) p hp ops

/-- Fixed data of a poll -/
theorem Poll.exec_frame {p p' : Poll} {op : PollOp} {u : Unit} (hp : p.WF)
    (h : p.exec op = .ok (p', u)) :
    p'.pollId = p.pollId ∧ p'.quorum = p.quorum ∧ p'.expiresAt = p.expiresAt ∧
    p'.pollSize = p.pollSize ∧ p'.voters = p.voters := by
  rcases Poll.exec_ok h with ⟨_, _, _, _, hc⟩ | ⟨_, _, hc⟩
  · have hv := Poll.castVote_voters hp.sorted hc
    obtain ⟨_, _, _, _, _, rfl⟩ := Poll.castVote_ok hc
    exact ⟨rfl, rfl, rfl, rfl, hv⟩
  · obtain ⟨_, _, rfl⟩ := Poll.finish_ok hc
    exact ⟨rfl, rfl, rfl, rfl, rfl⟩

theorem Poll.exec_ballot {p p' : Poll} {op : PollOp} {u : Unit} (h : p.exec op = .ok (p', u))
    (a : Addr) : p'.ballot a = p.ballot a ∨
      (p.ballot a = none ∧ ∃ ht vs, op = .cast ht a vs ∧ ht < p.expiresAt ∧ p'.ballot a = some vs) := by
  rcases Poll.exec_ok h with ⟨ht, b, vs, rfl, hc⟩ | ⟨ht, rfl, hc⟩
  · have hb := Poll.castVote_ballot hc a
    obtain ⟨w, h1, h2, _, _, _⟩ := Poll.castVote_ok hc
    by_cases hab : a = b
    · subst hab
      right
      refine ⟨?_, ht, vs, rfl, h2, ?_⟩
      · simp [Poll.ballot, h1]
      · simpa using hb
    · left; simpa [hab] using hb
  · obtain ⟨_, _, rfl⟩ := Poll.finish_ok hc
    left; rfl

theorem Poll.exec_votedWeight_mono {p p' : Poll} {op : PollOp} {u : Unit} (hp : p.WF)
    (h : p.exec op = .ok (p', u)) (i : Nat) (v : Vote) : p.votedWeight i v ≤ p'.votedWeight i v := by
  rcases Poll.exec_ok h with ⟨ht, b, vs, rfl, hc⟩ | ⟨ht, rfl, hc⟩
  · obtain ⟨w, _, _, g⟩ := Poll.castVote_votedWeight hp.sorted hc
    rw [g]; omega
  · obtain ⟨_, _, rfl⟩ := Poll.finish_ok hc
    exact Nat.le_refl _

/-- One-step monotonicity lifted to histories. -/
theorem Poll.run_induct {p : Poll} (hp : p.WF) {R : Poll → Poll → Prop}
    (hrefl : ∀ q, R q q) (htrans : ∀ a b c, R a b → R b c → R a c)
    (hstep : ∀ q q' op u, q.WF → q.exec op = .ok (q', u) → R q q') (ops : List PollOp) :
    R p (p.run ops) := by
  induction ops generalizing p with
  | nil => exact hrefl _
  | cons op ops ih =>
    unfold Poll.run at *
    rw [runCalls_cons]
    cases hx : p.exec op with
    | error e => exact ih hp
    | ok x =>
      obtain ⟨q, u⟩ := x
      exact htrans _ _ _ (hstep p q op u hp hx) (ih (Poll.exec_wf hp hx))

theorem Poll.run_frame {p : Poll} (hp : p.WF) (ops : List PollOp) :
    (p.run ops).pollId = p.pollId ∧ (p.run ops).quorum = p.quorum ∧
    (p.run ops).expiresAt = p.expiresAt ∧ (p.run ops).pollSize = p.pollSize ∧
    (p.run ops).voters = p.voters := by
  refine Poll.run_induct hp (R := fun a b => b.pollId = a.pollId ∧ b.quorum = a.quorum ∧
    b.expiresAt = a.expiresAt ∧ b.pollSize = a.pollSize ∧ b.voters = a.voters) ?_ ?_ ?_ ops
  · intro q; simp
  · rintro a b c ⟨h1, h2, h3, h4, h5⟩ ⟨g1, g2, g3, g4, g5⟩
    simp_all
  · intro q q' op u hq h; exact Poll.exec_frame hq h

/-- Uniqueness of the option that reaches a majority quorum, for any `WF` poll. -/
theorem Poll.consensus_iff {p : Poll} (hp : p.WF) (hmaj : p.total < 2 * p.quorum) {i : Nat}
    (hi : i < p.pollSize) (v : Vote) :
    p.consensus i = .ok (some v) ↔ p.quorum ≤ p.votedWeight i v := by
  have hlen : i < p.tallies.length := by rw [hp.size]; exact hi
  have hget : p.tallies[i]? = some p.tallies[i] := List.getElem?_eq_getElem hlen
  unfold Poll.consensus
  rw [hget]
  simp only [Except.ok.injEq]
  have hex := hp.exact i _ hget
  constructor
  · intro h
    have := Tallies.consensus_eq_some h
    rw [hex] at this; exact this
  · intro h
    cases hc : (p.tallies[i]).consensus p.quorum with
    | none =>
      have := Tallies.consensus_eq_none.mp hc v
      rw [hex] at this; omega
    | some v' =>
      have h' := Tallies.consensus_eq_some hc
      rw [hex] at h'
      by_cases hvv : v' = v
      · rw [hvv]
      · have := votedWeight_add_le_total p i hvv
        omega

theorem Poll.consensus_none_iff {p : Poll} (hp : p.WF) {i : Nat} (hi : i < p.pollSize) :
    p.consensus i = .ok none ↔ ∀ v, p.votedWeight i v < p.quorum := by
  have hlen : i < p.tallies.length := by rw [hp.size]; exact hi
  have hget : p.tallies[i]? = some p.tallies[i] := List.getElem?_eq_getElem hlen
  unfold Poll.consensus
  rw [hget]
  simp only [Except.ok.injEq]
  rw [Tallies.consensus_eq_none]
  have hex := hp.exact i _ hget
  simp only [hex]

theorem Snapshot.new_ok {th : MajorityThreshold} {ps : List (Addr × Nat)} {s : Snapshot}
    (h : Snapshot.new th ps = .ok s) :
    ps ≠ [] ∧ totalWeight ps ≤ u256Max ∧ mulCeil (totalWeight ps) th = .ok s.quorum ∧
    s.quorum ≠ 0 ∧ s.participants = OMap.ofList ps := by
  unfold Snapshot.new at h
  split at h
  · simp at h
  · rename_i h1
    split at h
    · simp at h
    · rename_i h2
      split at h
      · simp at h
      · rename_i q hq
        split at h
        · simp at h
        · rename_i h3
          simp only [Except.ok.injEq] at h
          subst h
          exact ⟨h1, by omega, hq, h3, rfl⟩

/-- weights of a map built by `ofList` never exceed those of the list -/
theorem sumBy_foldl_set_le (l : List (Addr × Nat)) (m : OMap Addr Nat) (hm : Sorted m) :
    sumBy (fun _ w => w) (l.foldl (fun m e => m.set e.1 e.2) m) ≤
      sumBy (fun _ w => w) m + totalWeight l := by
  induction l generalizing m with
  | nil => simp [totalWeight]
  | cons e t ih =>
    simp only [List.foldl_cons]
    have h1 := ih (m.set e.1 e.2) (sorted_set hm _ _)
    have ht : totalWeight (e :: t) = e.2 + totalWeight t := by simp [totalWeight]
    cases hg : m.get? e.1 with
    | none =>
      have := sumBy_set_none (fun _ w => w) e.2 hg
      omega
    | some w0 =>
      have := sumBy_set_some (fun _ w => w) hm e.2 hg
      omega

theorem sumBy_ofList_le (l : List (Addr × Nat)) :
    sumBy (fun _ w => w) (OMap.ofList l) ≤ totalWeight l := by
  have := sumBy_foldl_set_le l [] sorted_nil
  simpa [OMap.ofList] using this

theorem sumBy_foldl_set_eq (l : List (Addr × Nat)) (m : OMap Addr Nat)
    (hnd : (l.map Prod.fst).Nodup) (hfresh : ∀ e ∈ l, m.get? e.1 = none) :
    sumBy (fun _ w => w) (l.foldl (fun m e => m.set e.1 e.2) m) =
      sumBy (fun _ w => w) m + totalWeight l := by
  induction l generalizing m with
  | nil => simp [totalWeight]
  | cons e t ih =>
    simp only [List.map_cons, List.nodup_cons] at hnd
    simp only [List.foldl_cons]
    rw [ih (m.set e.1 e.2) hnd.2 ?_]
    · have := sumBy_set_none (fun _ w => w) e.2 (hfresh e (by simp))
      have ht : totalWeight (e :: t) = e.2 + totalWeight t := by simp [totalWeight]
      omega
    · intro x hx
      rw [get?_set, if_neg]
      · exact hfresh x (List.mem_cons_of_mem _ hx)
      · intro he
        apply hnd.1
        rw [← he]
        exact List.mem_map_of_mem hx

theorem sumBy_ofList_eq (l : List (Addr × Nat)) (hnd : (l.map Prod.fst).Nodup) :
    sumBy (fun _ w => w) (OMap.ofList l) = totalWeight l := by
  have := sumBy_foldl_set_eq l [] hnd (by simp)
  simpa [OMap.ofList] using this

theorem MajorityThreshold.ofPair_ok {n d : Nat} {th : MajorityThreshold}
    (h : MajorityThreshold.ofPair n d = .ok th) :
    th.num = n ∧ th.den = d ∧ 0 < n ∧ n ≤ d ∧ d < 2 * n := by
  unfold MajorityThreshold.ofPair Threshold.tryFrom at h
  split at h
  · simp at h
  · rename_i t ht
    split at ht
    · simp at ht
    split at ht
    · simp at ht
    split at ht
    · simp at ht
    simp only [Except.ok.injEq] at ht
    subst ht
    unfold MajorityThreshold.tryFrom at h
    split at h
    · simp at h
    · simp only [Except.ok.injEq] at h
      subst h
      simp_all
      omega

end Amp.Std
