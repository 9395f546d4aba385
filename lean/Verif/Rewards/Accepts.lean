import Verif.Rewards.Props

/-!
# C83: recording participation never fails

The multisig contract and the voting verifier record participation with plain messages: when the rewards contract
rejects one, the signature or the end of the poll that caused it is rejected too.
-/

namespace Amp.Rewards

/-- what keeps recording possible: epochs have a length and are not numbered beyond the block heights, and nothing is
counted beyond `n` -/
structure Room (s : State) (h n : Nat) : Prop where
  duration : 0 < s.params.duration
  num : s.lastUpdated.num ≤ s.lastUpdated.start
  start : s.lastUpdated.start ≤ h
  events : ∀ k e t, s.tallies (k, e) = some t → t.eventCount ≤ n
  part : ∀ k e t, s.tallies (k, e) = some t → ∀ w, amt t.participation w ≤ n

theorem epoch_bound {s : State} {h n : Nat} (hr : Room s h n) :
    s.lastUpdated.num + (h - s.lastUpdated.start) / s.params.duration ≤
      s.lastUpdated.start + (h - s.lastUpdated.start) / s.params.duration * s.params.duration ∧
    s.lastUpdated.start + (h - s.lastUpdated.start) / s.params.duration * s.params.duration ≤ h := by
  have h1 := hr.duration
  have h2 := hr.num
  have h3 := hr.start
  have h4 : (h - s.lastUpdated.start) / s.params.duration * s.params.duration ≤ h - s.lastUpdated.start :=
    Nat.div_mul_le_self _ _
  have h5 : (h - s.lastUpdated.start) / s.params.duration ≤
      (h - s.lastUpdated.start) / s.params.duration * s.params.duration := Nat.le_mul_of_pos_right _ h1
  omega

theorem Room.mono {s : State} {h n h' n' : Nat} (hr : Room s h n) (hh : h ≤ h') (hn : n ≤ n') : Room s h' n' :=
  ⟨hr.duration, hr.num, Nat.le_trans hr.start hh, fun k e t ht => Nat.le_trans (hr.events k e t ht) hn,
    fun k e t ht w => Nat.le_trans (hr.part k e t ht w) hn⟩

theorem room_step {s s' : State} {h n : Nat} {c : Call} {r : Resp} (hi : Inv s) (hr : Room s h n)
    (hh : h ≤ c.height) (hu : ∀ q, c.msg = .updateParams q → 0 < q.duration) (hx : exec s c = .ok (s', r)) :
    Room s' c.height (n + 1) := by
  have hr' := hr.mono hh (Nat.le_succ n)
  have hf := step_frame hi hx
  cases hm : c.msg with
  | recordParticipation ev w =>
    have h1 := hf.2.1 (by simp [hm])
    rw [exec, hm] at hx
    obtain ⟨cur, e, t, t2, hcur, _, ht, hev, hpart, _, _, hs'⟩ := record_ok hx
    have hold : t.eventCount ≤ n ∧ ∀ w', amt t.participation w' ≤ n := by
      cases hk : s.tallies (c.sender, e) with
      | none => rw [hk] at ht; subst ht; exact ⟨Nat.zero_le _, fun _ => Nat.zero_le _⟩
      | some t' => rw [hk] at ht; subst ht; exact ⟨hr.events _ _ _ hk, hr.part _ _ _ hk⟩
    have hnew : t2.eventCount ≤ n + 1 ∧ ∀ w', amt t2.participation w' ≤ n + 1 := by
      constructor
      · rcases hev with ⟨_, _, _, h⟩ | ⟨_, _, h⟩ <;> (rw [h]; have := hold.1; omega)
      · intro w'
        rw [hpart, amt_set]
        split
        · have := hold.2 w; omega
        · have := hold.2 w'; omega
    have htl : s'.tallies = s.tallies.set (c.sender, t.epoch.num) t2 := by rw [hs']
    refine ⟨h1.1 ▸ hr'.duration, h1.2 ▸ hr'.num, h1.2 ▸ hr'.start, ?_, ?_⟩
    · intro k e' t' ht'
      rw [htl, KV.set_apply] at ht'
      split at ht'
      · simp only [Option.some.injEq] at ht'; exact ht' ▸ hnew.1
      · exact hr'.events _ _ _ ht'
    · intro k e' t' ht'
      rw [htl, KV.set_apply] at ht'
      split at ht'
      · simp only [Option.some.injEq] at ht'; exact ht' ▸ hnew.2
      · exact hr'.part _ _ _ ht'
  | addRewards k =>
    have h1 := hf.2.1 (by simp [hm])
    have h2 := hf.2.2.1 (by simp [hm])
    exact ⟨h1.1 ▸ hr'.duration, h1.2 ▸ hr'.num, h1.2 ▸ hr'.start, h2.1 ▸ hr'.events, h2.1 ▸ hr'.part⟩
  | distributeRewards k m =>
    have h1 := hf.2.1 (by simp [hm])
    have h2 := hf.2.2.1 (by simp [hm])
    exact ⟨h1.1 ▸ hr'.duration, h1.2 ▸ hr'.num, h1.2 ▸ hr'.start, h2.1 ▸ hr'.events, h2.1 ▸ hr'.part⟩
  | updateParams q =>
    have h2 := hf.2.2.1 (by simp [hm])
    have hq := hu q hm
    rw [exec, hm] at hx
    obtain ⟨_, _, cur, hcur, hs⟩ := update_ok hx
    have hb := epoch_bound (hr.mono hh (Nat.le_refl n))
    obtain ⟨_, _, _, rfl⟩ := currentEpoch_ok.mp hcur
    rcases hs with ⟨hlt, rfl⟩ | ⟨_, rfl⟩
    · exact ⟨hq, by simp only at hlt ⊢; omega, Nat.le_refl _, hr'.events, hr'.part⟩
    · exact ⟨hq, hb.1, hb.2, hr'.events, hr'.part⟩

theorem record_accepted {s : State} {h n : Nat} (hr : Room s h n) (ev : Str) (w k : Addr)
    (hmax : h ≤ u64Max) (hn : n < u64Max) : ∃ s', recordParticipation s ev w k h = .ok (s', {}) := by
  have hb := epoch_bound hr
  have hcur := (currentEpoch_ok (s := s) (h := h)).mpr ⟨hr.start, Nat.pos_iff_ne_zero.mp hr.duration, by omega, rfl⟩
  generalize (⟨_, _⟩ : Epoch) = cur at hcur
  unfold recordParticipation
  simp only [hcur]
  have key : ∀ t : Tally, t.eventCount ≤ n → (∀ w', amt t.participation w' ≤ n) →
      ∃ t1, t.record w = .ok t1 ∧ t1.eventCount ≤ n := by
    intro t h1 h2
    unfold Tally.record
    have := h2 w
    unfold amt at this
    cases hg : t.participation.get? w with
    | none => exact ⟨_, rfl, h1⟩
    | some v =>
      rw [hg] at this
      simp only at this ⊢
      rw [if_neg (by omega)]
      exact ⟨_, rfl, h1⟩
  have bump : ∀ (b : Bool) (t : Tally), t.eventCount ≤ n → ∃ t2, bumpEvents b t = .ok t2 := by
    intro b t ht
    unfold bumpEvents
    cases b with
    | false => exact ⟨_, rfl⟩
    | true => rw [if_pos rfl, if_neg (by omega)]; exact ⟨_, rfl⟩
  have fin : ∀ (x : Nat × Bool × KV (Str × Addr) Nat), ∃ s',
      (match x with
        | (epochNum, isNew, events) =>
          let tally := match s.tallies (k, epochNum) with
            | some t => t
            | none => ⟨0, [], cur, s.params⟩
          match tally.record w with
          | .error e => .error e
          | .ok t1 =>
            match bumpEvents isNew t1 with
            | .error e => .error e
            | .ok t2 =>
              .ok ({ s with events := events, tallies := s.tallies.set (k, t2.epoch.num) t2 }, {})) =
        (.ok (s', {}) : Except Err (State × Resp)) := by
    rintro ⟨e, isNew, events⟩
    simp only
    cases hk : s.tallies (k, e) with
    | none =>
      obtain ⟨t1, h1, h2⟩ := key ⟨0, [], cur, s.params⟩ (Nat.zero_le _) (fun _ => Nat.zero_le _)
      obtain ⟨t2, h3⟩ := bump isNew t1 h2
      simp only [h1, h3]
      exact ⟨_, rfl⟩
    | some t =>
      obtain ⟨t1, h1, h2⟩ := key t (hr.events _ _ _ hk) (hr.part _ _ _ hk)
      obtain ⟨t2, h3⟩ := bump isNew t1 h2
      simp only [h1, h3]
      exact ⟨_, rfl⟩
  exact fin _

/-- blocks come in order, from height `h` on -/
def HeightsFrom : Nat → List Call → Prop
  | _, [] => True
  | h, c :: cs => h ≤ c.height ∧ HeightsFrom c.height cs

instance : ∀ h cs, Decidable (HeightsFrom h cs)
  | _, [] => isTrue trivial
  | h, c :: cs => by
    have := instDecidableHeightsFrom c.height cs
    unfold HeightsFrom
    infer_instance

theorem room_run (cs : List Call) : ∀ {s : State} {h n : Nat}, Inv s → Room s h n → HeightsFrom h cs →
    (∀ c ∈ cs, ∀ q, c.msg = .updateParams q → 0 < q.duration) → ∀ {h'}, h ≤ h' →
    (∀ c ∈ cs, c.height ≤ h') →
    Room (runCalls exec s cs) h' (n + cs.length) := by
  induction cs with
  | nil => intro s h n _ hr _ _ h' hle _; exact hr.mono hle (Nat.le_add_right _ _)
  | cons c cs ih =>
    intro s h n hi hr hh hu h' hle hc
    rw [runCalls_cons]
    have hlen : n + (c :: cs).length = n + 1 + cs.length := by simp only [List.length_cons]; omega
    rw [hlen]
    have hu' : ∀ d ∈ cs, ∀ q, d.msg = .updateParams q → 0 < q.duration :=
      fun d hd => hu d (List.mem_cons_of_mem _ hd)
    have hc' : ∀ d ∈ cs, d.height ≤ h' := fun d hd => hc d (List.mem_cons_of_mem _ hd)
    have hch : c.height ≤ h' := hc c (List.mem_cons_self)
    cases hx : exec s c with
    | error x => exact ih hi (hr.mono hh.1 (Nat.le_succ n)) hh.2 hu' hch hc'
    | ok x =>
      obtain ⟨s', r⟩ := x
      exact ih (inv_step hi hx) (room_step hi hr hh.1 (hu c List.mem_cons_self) hx) hh.2 hu' hch hc'

/-- C83: recording participation is never rejected.  Whatever was sent to the rewards contract before, by anyone and
in whatever amounts, if blocks come in order, every epoch duration ever set is positive (the message type excludes
zero) and fewer than 2⁶⁴-1 calls were made, then any record sent by any contract is accepted. -/
theorem C83_record_accepted (cfg : Config) (p : Params) (h0 : Nat) (cs : List Call) (c : Call) (hp : 0 < p.duration)
    (hu : ∀ c ∈ cs, ∀ q, c.msg = .updateParams q → 0 < q.duration) (hh : HeightsFrom h0 (cs ++ [c]))
    (hmax : c.height ≤ u64Max) (hn : cs.length < u64Max) {ev : Str} {w : Addr}
    (hm : c.msg = .recordParticipation ev w) :
    ∃ s', exec (stateAfter cfg p h0 cs) c = .ok (s', {}) := by
  have hh1 : ∀ (cs : List Call) (h : Nat), HeightsFrom h (cs ++ [c]) →
      HeightsFrom h cs ∧ h ≤ c.height ∧ ∀ d ∈ cs, d.height ≤ c.height := by
    intro cs
    induction cs with
    | nil => intro h hx; exact ⟨trivial, hx.1, by simp⟩
    | cons d cs ih =>
      intro h hx
      obtain ⟨h1, h2, h3⟩ := ih d.height hx.2
      refine ⟨⟨hx.1, h1⟩, Nat.le_trans hx.1 h2, ?_⟩
      intro x hx'
      rcases List.mem_cons.mp hx' with rfl | hx'
      · exact h2
      · exact h3 x hx'
  obtain ⟨h1, h2, h3⟩ := hh1 cs h0 hh
  have hroom : Room (init cfg p h0) h0 0 :=
    ⟨hp, Nat.zero_le _, Nat.le_refl _, by intro k e t ht; simp [init, KV.empty] at ht,
      by intro k e t ht; simp [init, KV.empty] at ht⟩
  have := room_run cs (inv_init cfg p h0) hroom h1 hu h2 h3
  rw [exec, hm]
  exact record_accepted this ev w c.sender hmax (by omega)

/-- the hypotheses hold in the example: governance has shortened the epochs, and a record after that is accepted -/
example : 0 < exParams.duration ∧ HeightsFrom 5 (exCalls ++ [⟨7, [], 31, .recordParticipation "c".toList 22⟩]) ∧
    (exCalls.all fun c => match c.msg with
      | .updateParams q => decide (0 < q.duration)
      | _ => true) = true ∧
    epochNum (stateAfter exCfg exParams 5 exCalls) 31 = some 4 := by
  decide +kernel

/-- without the order of blocks the claim fails: a record from before the last checkpoint is rejected -/
example : exec (stateAfter exCfg exParams 5 exCalls) ⟨7, [], 4, .recordParticipation "c".toList 22⟩ =
    .error .blockHeightInPast := by
  rfl

end Amp.Rewards
