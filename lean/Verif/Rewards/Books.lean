import Verif.Rewards.Props
import Verif.Base.Strings
import Mathlib.Data.List.Induction
import Mathlib.Data.List.Nodup

/-!
# Rewards for work that was recorded once

What a worker is due when every piece of work is recorded exactly once, by the contract `k`: `took id a` says that
worker `a` took part in the event with number `id`.
-/

namespace Amp.Rewards

open Amp.Std

/-- among the events `ids`, those that the worker took part in -/
def partsIn (took : Nat → Addr → Bool) (ids : List Nat) (a : Addr) : Nat := (ids.filter (took · a)).length

/-- What is due from the pool of `k` follows the work `took`: an event is counted exactly if somebody took part in
it, and in one epoch; for an epoch with events, those workers are due something who took part in at least the
threshold's share of these events, and each of them is due an equal part of the rewards of the epoch. -/
def FollowsWork (s : State) (k : Addr) (took : Nat → Addr → Bool) : Prop :=
  (∀ ev e, s.events (ev, k) = some e → ∃ id, ev = showNat id) ∧
  (∀ id, (∃ e, s.events (showNat id, k) = some e) ↔ ∃ a, took id a = true) ∧
  ∀ e, ∃ ids : List Nat, ids.Nodup ∧ (∀ id, id ∈ ids ↔ s.events (showNat id, k) = some e) ∧
    (s.tallies (k, e) = none ↔ ids = []) ∧
    (∀ a, s.tallies (k, e) = none → due s k a e = 0) ∧
    ∀ t, s.tallies (k, e) = some t → ∃ workers : List Addr, workers.Nodup ∧
      (∀ a, a ∈ workers ↔ 0 < partsIn took ids a ∧
        t.params.threshold.num * ids.length ≤ partsIn took ids a * t.params.threshold.den) ∧
      ∀ a, due s k a e = if a ∈ workers then t.params.rewards / workers.length else 0

theorem distinct_nodup (l : List Str) : (distinct l).Nodup := by
  induction l using List.reverseRecOn with
  | nil => simp [distinct]
  | append_singleton l x ih =>
    rw [distinct_snoc]
    split
    · exact ih
    · rename_i h
      rw [List.nodup_append]
      refine ⟨ih, by simp, ?_⟩
      intro a ha b hb
      simp only [List.mem_cons, List.not_mem_nil, or_false] at hb
      subst hb
      rintro rfl
      exact h ((mem_distinct l a).mp ha)

theorem mem_eventsIn (rs : List (Str × Addr × Nat)) (e : Nat) (ev : Str) :
    ev ∈ eventsIn rs e ↔ homeEpoch rs ev = some e := by
  unfold eventsIn
  rw [List.mem_filter, mem_distinct]
  simp only [decide_eq_true_eq]
  refine ⟨fun h => h.2, fun h => ⟨?_, h⟩⟩
  unfold homeEpoch at h
  obtain ⟨r, hr, _⟩ := Option.map_eq_some_iff.mp h
  have h1 := List.mem_of_find?_eq_some hr
  have h2 := List.find?_some hr
  simp only [decide_eq_true_eq] at h2
  rw [← h2]
  exact List.mem_map_of_mem h1

theorem homeEpoch_isSome (rs : List (Str × Addr × Nat)) (ev : Str) :
    (∃ e, homeEpoch rs ev = some e) ↔ ∃ a, (ev, a) ∈ rs.map (fun r => (r.1, r.2.1)) := by
  constructor
  · rintro ⟨e, h⟩
    obtain ⟨r, hr, _⟩ := Option.map_eq_some_iff.mp h
    have h1 := List.mem_of_find?_eq_some hr
    have h2 := List.find?_some hr
    simp only [decide_eq_true_eq] at h2
    exact ⟨r.2.1, List.mem_map.mpr ⟨r, h1, by rw [h2]⟩⟩
  · rintro ⟨a, h⟩
    obtain ⟨r, hr, he⟩ := List.mem_map.mp h
    simp only [Prod.mk.injEq] at he
    unfold homeEpoch
    cases hf : rs.find? (fun r => r.1 = ev) with
    | some x => exact ⟨_, rfl⟩
    | none =>
      rw [List.find?_eq_none] at hf
      exact absurd he.1 (by simpa using hf r hr)

/-- a worker recorded at most once for an event has as many records as events it took part in -/
theorem recordsIn_once {rs : List (Str × Addr × Nat)} (h : (rs.map (fun r => (r.1, r.2.1))).Nodup) (e : Nat)
    (a : Addr) : recordsIn rs e a =
      ((eventsIn rs e).filter (fun ev => decide ((ev, a) ∈ rs.map (fun r => (r.1, r.2.1))))).length := by
  unfold recordsIn
  rw [← List.length_map (f := fun r : Str × Addr × Nat => r.1)]
  apply List.Perm.length_eq
  rw [List.perm_ext_iff_of_nodup]
  · intro ev
    simp only [List.mem_map, List.mem_filter, decide_eq_true_eq, mem_eventsIn]
    constructor
    · rintro ⟨r, ⟨hr, h1, h2⟩, rfl⟩
      exact ⟨h2, r, hr, by rw [← h1]⟩
    · rintro ⟨h1, r, hr, he⟩
      simp only [Prod.mk.injEq] at he
      exact ⟨r, ⟨hr, he.2, by rw [he.1]; exact h1⟩, he.1⟩
  · have h' := List.Nodup.of_map (fun r : Str × Addr × Nat => (r.1, r.2.1)) h
    rw [List.nodup_map_iff_inj_on (h'.filter _)]
    intro x hx y hy hxy
    simp only [List.mem_filter, decide_eq_true_eq] at hx hy
    rw [List.nodup_map_iff_inj_on h'] at h
    exact h x hx.1 y hy.1 (by rw [hxy, hx.2.1, hy.2.1])
  · exact ((distinct_nodup _).filter _).filter _

theorem eligible_iff (t : Tally) (a : Addr) : eligible t a = true ↔
    ∃ k, t.participation.get? a = some k ∧ 0 < k ∧ k ≤ t.eventCount ∧
      t.params.threshold.num * t.eventCount ≤ k * t.params.threshold.den := by
  unfold eligible
  split
  · rename_i h; simp [h]
  · rename_i k h; simp [h]

/-- a list of numerals -/
theorem numerals {l : List Str} (h : ∀ x ∈ l, ∃ id, x = showNat id) : ∃ ids : List Nat, ids.map showNat = l := by
  induction l with
  | nil => exact ⟨[], rfl⟩
  | cons x l ih =>
    obtain ⟨id, rfl⟩ := h x List.mem_cons_self
    obtain ⟨ids, rfl⟩ := ih (fun y hy => h y (List.mem_cons_of_mem _ hy))
    exact ⟨id :: ids, rfl⟩

/-- If the records of `k` are those of the work `took`, each once, then what is due follows that work. -/
theorem followsWork (cfg : Config) (p : Params) (h : Nat) (cs : List Call) (k : Addr) (took : Nat → Addr → Bool)
    (hnd : ((records k (trace cfg p h cs)).map (fun r => (r.1, r.2.1))).Nodup)
    (hmem : ∀ ev a, (ev, a) ∈ (records k (trace cfg p h cs)).map (fun r => (r.1, r.2.1)) ↔
      ∃ id, ev = showNat id ∧ took id a = true) :
    FollowsWork (stateAfter cfg p h cs) k took := by
  have hhome := C42_event_home cfg p h cs k
  have hform : ∀ ev e, (stateAfter cfg p h cs).events (ev, k) = some e → ∃ id, ev = showNat id := by
    intro ev e he
    rw [hhome] at he
    obtain ⟨a, ha⟩ := (homeEpoch_isSome _ _).mp ⟨e, he⟩
    obtain ⟨id, h1, _⟩ := (hmem ev a).mp ha
    exact ⟨id, h1⟩
  refine ⟨hform, ?_, ?_⟩
  · intro id
    simp only [hhome]
    rw [homeEpoch_isSome]
    constructor
    · rintro ⟨a, ha⟩
      obtain ⟨id', h1, h2⟩ := (hmem _ a).mp ha
      rw [showNat_inj h1]
      exact ⟨a, h2⟩
    · rintro ⟨a, ha⟩
      exact ⟨a, (hmem _ a).mpr ⟨id, rfl, ha⟩⟩
  · intro e
    obtain ⟨ids, hids⟩ := numerals (l := eventsIn (records k (trace cfg p h cs)) e) (by
      intro x hx
      rw [mem_eventsIn] at hx
      exact hform x e (by rw [hhome]; exact hx))
    have hmemi : ∀ id, id ∈ ids ↔ (stateAfter cfg p h cs).events (showNat id, k) = some e := by
      intro id
      rw [hhome, ← mem_eventsIn, ← hids, List.mem_map]
      exact ⟨fun hi => ⟨id, hi, rfl⟩, fun ⟨i, hi, he⟩ => showNat_inj he ▸ hi⟩
    have hidn : ids.Nodup := by
      have : (ids.map showNat).Nodup := by rw [hids]; exact (distinct_nodup _).filter _
      exact List.Nodup.of_map _ this
    have hlen : (eventsIn (records k (trace cfg p h cs)) e).length = ids.length := by rw [← hids, List.length_map]
    have hparts : ∀ a, recordsIn (records k (trace cfg p h cs)) e a = partsIn took ids a := by
      intro a
      rw [recordsIn_once hnd, ← hids, List.filter_map, List.length_map]
      unfold partsIn
      congr 1
      apply List.filter_congr
      intro id _
      simp only [Function.comp_apply]
      rw [Bool.eq_iff_iff, decide_eq_true_iff, hmem]
      constructor
      · rintro ⟨i, hi, ht⟩
        rw [showNat_inj hi]
        exact ht
      · exact fun ht => ⟨id, rfl, ht⟩
    have hle : ∀ a, partsIn took ids a ≤ ids.length := fun a => List.length_filter_le _ _
    refine ⟨ids, hidn, hmemi, ?_, ?_, ?_⟩
    · rw [(C42_tally cfg p h cs k e).1, ← hids, List.map_eq_nil_iff]
    · intro a ht
      simp only [due, ht]
    · intro t ht
      obtain ⟨g1, g2, _⟩ := (C42_tally cfg p h cs k e).2 t ht
      rw [hlen] at g1
      have hel : ∀ a, eligible t a = true ↔ 0 < partsIn took ids a ∧
          t.params.threshold.num * ids.length ≤ partsIn took ids a * t.params.threshold.den := by
        intro a
        rw [eligible_iff, g1]
        constructor
        · rintro ⟨v, hv, h1, h2, h3⟩
          obtain ⟨rfl, _⟩ := (g2 a v).mp hv
          rw [hparts] at h1 h3
          exact ⟨h1, h3⟩
        · rintro ⟨h1, h2⟩
          exact ⟨partsIn took ids a, (g2 a _).mpr ⟨(hparts a).symm, h1⟩, h1, hle a, h2⟩
      have hsorted : OMap.Sorted t.participation := (inv_reachable cfg p h cs).part k e t ht
      refine ⟨t.participation.keys.filter (eligible t), (OMap.keys_nodup hsorted).filter _, ?_, ?_⟩
      · intro a
        rw [List.mem_filter, ← hel]
        exact ⟨fun x => x.2, fun x => ⟨eligible_mem x, x⟩⟩
      · intro a
        simp only [due, ht, share, eligibleNum]
        congr 1
        rw [eq_iff_iff, List.mem_filter]
        exact ⟨fun x => ⟨eligible_mem x, x⟩, fun x => x.2⟩

end Amp.Rewards
