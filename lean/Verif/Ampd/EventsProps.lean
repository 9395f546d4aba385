import Verif.Ampd.EventsLemmas

/-! # C66: every subscriber is sent the blocks of the chain in order, without gaps or repetitions -/

namespace Amp.Ampd

variable {R A : Type}

/-- Whatever the node replies and wherever the publisher is stopped or fails: as long as the node does not
report a lower height than before, what is sent is a number of complete consecutive blocks from the start
height (each with its begin marker, its begin-block, transaction and end-block events in order, and its end
marker), followed by the beginning of the next one if the publisher failed inside it; it continues with the
block after the last one sent; no block above a height reported by the node is sent. -/
theorem C66_contiguous (W : World R A) (start : Option Nat) (i : SubIn) (s : Nat)
    (hs : startHeight start i = some s) (h : NoRegress s i.ticks) :
    ∃ n rest, (runSub W start i).1 = blocks W s n ++ rest ∧ rest <+: frame W (s + n) ∧
      (∀ c, (runSub W start i).2 = some c → rest = [] ∧ c = s + n) ∧
      (∀ k, s ≤ k → k < s + n → Decodable W k ∧ ∃ r ∈ reports i.ticks, k ≤ r) := by
  unfold runSub
  rw [hs]
  simp only
  obtain ⟨n, hp, h1, h2, _⟩ := subLoop_spec W s i.ticks h
  obtain ⟨rest, hr1, hr2, hr3⟩ := hp.ex
  refine ⟨n, rest, hr1, hr2, ?_, fun k hk hk' => ⟨hp.dec k hk hk', h2 k hk hk'⟩⟩
  intro c hc
  exact ⟨hr3 (by rw [hc]; rfl), h1 c hc⟩

/-- Without a start height and without a reply to the first query, nothing is sent. -/
theorem C66_no_start (W : World R A) (start : Option Nat) (i : SubIn) (hs : startHeight start i = none) :
    runSub W start i = ([], none) := by
  unfold runSub; rw [hs]

theorem subLoop_complete (W : World R A) (s : Nat) (ts : List Tick) (t : Tick) (L c : Nat)
    (h : NoRegress s (ts ++ [t])) (hL : t.latest = some L) (hc : ∀ k, t.cancelled k = false)
    (hok : (subLoop W s (ts ++ [t])).2 = some c) : c = L + 1 := by
  induction ts generalizing s with
  | nil =>
    rw [List.nil_append] at h hok
    have hs : s ≤ L + 1 := h.2 L (by unfold reports; rw [List.filterMap_cons_some hL]; simp)
    obtain ⟨m, _, hm1, _, _, _, hm5⟩ := processBlocks_spec W t L (L + 1 - s) s rfl
    unfold subLoop processBlocksFrom at hok
    rw [hL] at hok
    simp only at hok
    cases hx : processBlocks W t L (L + 1 - s) s with
    | mk es res =>
      rw [hx] at hok hm1 hm5
      cases res with
      | none => simp at hok
      | some d =>
        have e1 := hm1 d rfl hs
        have e2 := hm5 d rfl hc
        simp only [subLoop, Option.some.injEq] at hok
        omega
  | cons t' ts ih =>
    obtain ⟨hpw, hge⟩ := h
    rw [List.cons_append] at hok
    unfold subLoop at hok
    unfold processBlocksFrom at hok
    cases ht : t'.latest with
    | none => rw [ht] at hok; simp at hok
    | some U =>
      rw [ht] at hok
      have hrep : reports (t' :: ts ++ [t]) = U :: reports (ts ++ [t]) := by
        unfold reports; rw [List.cons_append, List.filterMap_cons_some ht]
      rw [hrep] at hpw hge
      have hs : s ≤ U + 1 := hge U (by simp)
      obtain ⟨m, _, hm1, _, hm3, _, _⟩ := processBlocks_spec W t' U (U + 1 - s) s rfl
      simp only at hok
      cases hx : processBlocks W t' U (U + 1 - s) s with
      | mk es res =>
        rw [hx] at hok hm1
        cases res with
        | none => simp at hok
        | some d =>
          have e1 := hm1 d rfl hs
          refine ih (d + 1) ⟨(List.pairwise_cons.mp hpw).2, ?_⟩ hok
          intro r hr
          have := (List.pairwise_cons.mp hpw).1 r hr
          omega

/-- Nothing is left out: if the last poll reported height `L` and the publisher was neither stopped nor failed
during it, everything from the start height up to and including block `L` has been sent, and nothing
else. -/
theorem C66_complete (W : World R A) (start : Option Nat) (i : SubIn) (s : Nat)
    (hs : startHeight start i = some s) (h : NoRegress s i.ticks)
    (ts : List Tick) (t : Tick) (L c : Nat) (hts : i.ticks = ts ++ [t]) (hL : t.latest = some L)
    (hc : ∀ k, t.cancelled k = false) (hok : (runSub W start i).2 = some c) :
    (runSub W start i).1 = blocks W s (L + 1 - s) := by
  obtain ⟨n, rest, h1, _, h3, _⟩ := C66_contiguous W start i s hs h
  obtain ⟨rfl, hcn⟩ := h3 c hok
  have : c = L + 1 := by
    unfold runSub at hok
    rw [hs] at hok
    simp only [hts] at hok h
    exact subLoop_complete W s ts t L c h hL hc hok
  rw [h1, List.append_nil]
  congr 1
  omega

/-- In particular no block begins or ends twice, and blocks end in the order of their heights. -/
theorem C66_once (W : World R A) (start : Option Nat) (i : SubIn) (s : Nat)
    (hs : startHeight start i = some s) (h : NoRegress s i.ticks) :
    ∃ k, ends (runSub W start i).1 = List.range' s k := by
  obtain ⟨n, rest, h1, h2, _, _⟩ := C66_contiguous W start i s hs h
  have : (runSub W start i).1 <+: blocks W s (n + 1) := by
    rw [h1, blocks_append, blocks_one]
    exact (List.prefix_append_right_inj _).mpr h2
  obtain ⟨k, hk, _, _⟩ := ends_prefix W (n + 1) s _ this
  exact ⟨k, hk⟩

/-! ### Concrete cases -/

/-- a chain with one event per transaction, numbered by the height -/
def demoWorld : World Nat Nat where
  chain h := { beginBlock := some [10 * h], txs := some [[10 * h + 1], [10 * h + 2]], endBlock := some [10 * h + 3] }
  decode r := some r

/-- a poll that succeeds -/
def okTick (latest : Nat) : Tick where
  latest := some latest
  block _ := { available := true, sends := none }
  cancelled _ := false

example : NoRegress 4 [okTick 3, okTick 5, okTick 5] := by
  constructor <;> decide

example : (runSub demoWorld (some 4) ⟨none, [okTick 3, okTick 5, okTick 5]⟩).2 = some 6 := by decide

example : (runSub demoWorld (some 5) ⟨none, [okTick 5]⟩).1 =
    [.blockBegin 5, .abci 50, .abci 51, .abci 52, .abci 53, .blockEnd 5] := by decide

/-- The hypothesis on the node is needed: the publisher believes whatever height it is given, so after the
latest height has gone from 5 back to 3 and to 5 again (several nodes behind one endpoint) it sends blocks
4 and 5 a second time. -/
theorem C66_counterexample_regress :
    ends (runSub demoWorld (some 5) ⟨none, [okTick 5, okTick 3, okTick 5]⟩).1 = [5, 4, 5] := by decide

end Amp.Ampd
