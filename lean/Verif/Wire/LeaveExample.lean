import Verif.Wire.LeaveProps
import Verif.Wire.PaidExample

/-!
# Concrete cases for C118

The contracts of `EndToEndExample`: worker 5 joins, leaves, and claims its stake.
-/

namespace Amp.Wire

open Amp.Chain (Entry exP exTx svc eth sui)
open Amp.Registry (registered lastOwn deposits payouts)

def leaveUnbond : Chain.Tx := exTx 5 10 10 (.registry (.unbondWorker svc))
def leaveClaim : Chain.Tx := exTx 5 20000 10 (.registry (.claimStake svc))

def leaveTxs : List Chain.Tx := e2eTxs.take 4 ++ [leaveUnbond, leaveClaim]

/-- the contracts and the first `n` transactions, as texts -/
def leaveUpTo (n : Nat) : List TextStep :=
  e2eOrders.map (fun x => .found x.1 x.2.conf.party 1 (writeOrder exTexture x.2)) ++
    (leaveTxs.take n).map (fun tx => .tx (written exTexture tx))

def leavePlain (n : Nat) : List Chain.Step := e2eOrders.map (fun x => .found x.1 (x.2.kind 1)) ++ (leaveTxs.take n).map .tx

theorem leave_succ {n : Nat} {tx : Chain.Tx} (h : leaveTxs[n]? = some tx) : leaveUpTo (n + 1) = leaveUpTo n ++ [.tx (written exTexture tx)] := by
  unfold leaveUpTo
  rw [List.append_assoc, List.take_add_one, h, List.map_append]
  rfl

theorem leave_range (n : Nat) : ∀ s ∈ leaveUpTo n, StepInRange s := by
  intro s hs
  rcases List.mem_append.mp hs with hs | hs
  · obtain ⟨x, -, rfl⟩ := List.mem_map.mp hs
    show (1 : Nat) ≤ u64Max
    decide
  · obtain ⟨tx, htx, rfl⟩ := List.mem_map.mp hs
    have h : ∀ t ∈ leaveTxs, t.block.height ≤ u64Max ∧ t.block.time ≤ u64Max ∧ ∀ m ∈ t.msgs, ∀ c ∈ m.2.1, c.2 ≤ u128Max := by
      decide +kernel
    obtain ⟨h1, h2, h3⟩ := h tx (List.mem_of_mem_take htx)
    refine ⟨h1, h2, ?_⟩
    intro m hm
    obtain ⟨m', hm', rfl⟩ := List.mem_map.mp hm
    exact h3 m' hm'

theorem leave_founding (n : Nat) : (leaveUpTo n).filterMap (founding exTexture) = e2eOrders.map (fun x => .found x.1 (x.2.kind 1)) := by
  unfold leaveUpTo
  rw [List.filterMap_append, List.filterMap_map, List.filterMap_map]
  have h1 : e2eOrders.filterMap (founding exTexture ∘ fun x => .found x.1 x.2.conf.party 1 (writeOrder exTexture x.2)) =
      e2eOrders.map (fun x => .found x.1 (x.2.kind 1)) := by
    refine filterMap_all (fun x hx => ?_)
    show (readOrder exTexture _ _).map _ = _
    rw [e2e_orders x hx]
    rfl
  have h2 : (leaveTxs.take n).filterMap (founding exTexture ∘ fun tx => .tx (written exTexture tx)) = [] :=
    List.filterMap_eq_nil_iff.mpr (fun x _ => rfl)
  rw [h1, h2, List.append_nil]

theorem leave_setup (n : Nat) : textSetup exTexture (leaveUpTo n) = e2eSetup := by
  funext a
  unfold textSetup e2eSetup
  rw [leave_founding]
  generalize e2eOrders = l
  induction l with
  | nil => rfl
  | cons x t ih =>
    simp only [List.map_cons, Chain.setupOf, List.lookup_cons]
    by_cases hab : a = x.1
    · simp [hab]
    · have : (a == x.1) = false := by simpa using hab
      rw [if_neg hab, this]
      exact ih

theorem leave_read : ∀ tx ∈ leaveTxs, ∀ m ∈ tx.msgs,
    (partyAt e2eSetup m.1).bind (fun k => readFor exTexture k (write exTexture m.2.2)) = some m.2.2 := by
  decide +kernel

theorem leave_means {tx : Chain.Tx} (h : tx ∈ leaveTxs) : meaning exTexture e2eSetup (written exTexture tx) = tx := by
  have key : tx.msgs.map ((fun m => (m.1, m.2.1, meant exTexture e2eSetup m.1 m.2.2)) ∘
      (fun m => (m.1, m.2.1, write exTexture m.2.2))) = tx.msgs := by
    refine (List.map_congr_left (fun m hm => ?_)).trans (List.map_id _)
    have := leave_read tx h m hm
    show (m.1, m.2.1, meant exTexture e2eSetup m.1 (write exTexture m.2.2)) = m
    have e : meant exTexture e2eSetup m.1 (write exTexture m.2.2) = m.2.2 := by
      unfold partyAt at this
      unfold meant
      cases hs : e2eSetup m.1 with
      | none => rw [hs] at this; cases this
      | some k =>
        rw [hs] at this
        have this : readFor exTexture (party k.init) (write exTexture m.2.2) = some m.2.2 := this
        simp only [this]
    rw [e]
  unfold meaning written
  rw [List.map_map, key]

theorem leave_plain (n : Nat) : steps exTexture (leaveUpTo n) = leavePlain n := by
  unfold steps
  rw [leave_setup]
  unfold leaveUpTo leavePlain
  rw [List.filterMap_append, List.filterMap_map, List.filterMap_map]
  refine congrArg₂ (· ++ ·) ?_ ?_
  · refine filterMap_all (fun x hx => ?_)
    show (readOrder exTexture _ _).map _ = _
    rw [e2e_orders x hx]
    rfl
  · refine filterMap_all (fun tx htx => ?_)
    show some (Chain.Step.tx (meaning exTexture e2eSetup (written exTexture tx))) = _
    rw [leave_means (List.mem_of_mem_take htx)]

theorem leave_apart (n : Nat) : TextApart exTexture (leaveUpTo n) := by
  intro t ht a ha
  have hm : a ∈ e2eOrders.map Prod.fst := by
    rw [leave_setup] at ha
    by_contra h
    refine ha (List.lookup_eq_none_iff.mpr (fun p hp => ?_))
    obtain ⟨x, hx, rfl⟩ := List.mem_map.mp hp
    have : a ≠ x.1 := by rintro rfl; exact h (List.mem_map_of_mem hx)
    simpa using this
  rcases List.mem_append.mp ht with ht | ht
  · obtain ⟨x, -, hx⟩ := List.mem_map.mp ht
    cases hx
  · obtain ⟨tx, htx, hx⟩ := List.mem_map.mp ht
    cases hx
    have h : ∀ tx ∈ leaveTxs, ∀ a ∈ e2eOrders.map Prod.fst, tx.sender ≠ a ∧ tx.accepts a = false := by decide +kernel
    exact h tx (List.mem_of_mem_take htx) a hm

theorem leave_world (n : Nat) : textDeployedWorld exTexture exP (leaveUpTo n) = Chain.deployedWorld exP (leavePlain n) := by
  rw [(C105_text (P := exP) ex_sound exP_bytes (leaveUpTo n) (leave_range n)).1, leave_plain]

theorem leave_log (n : Nat) : textDeployedLog exTexture exP (leaveUpTo n) = Chain.deployedLog exP (leavePlain n) := by
  rw [(C105_text (P := exP) ex_sound exP_bytes (leaveUpTo n) (leave_range n)).2.1, leave_plain]

/-- `C118_unbond` applies: worker 5 is bonded and may unbond -/
example : (∃ x, execText exTexture exP (textDeployedWorld exTexture exP (leaveUpTo 4)) (written exTexture leaveUnbond) = .ok x) ∧
    served 10 (textDeployedLog exTexture exP (leaveUpTo 5)) = served 10 (textDeployedLog exTexture exP (leaveUpTo 4)) ++
      [(⟨5, [], 50000000000, .unbondWorker svc⟩, { sends := [] })] := by
  have hsucc := leave_succ (n := 4) (tx := leaveUnbond) rfl
  obtain ⟨a, b⟩ := C118_unbond (P := exP) ex_sound exP_bytes (leaveUpTo 4) (written exTexture leaveUnbond)
    (by rw [← hsucc]; exact leave_range 5) (by rw [← hsucc]; exact leave_apart 5) 10 1 (by rw [leave_setup]; rfl) svc [] rfl (by decide)
  have hx := a.mpr (by
    rw [leave_log]
    refine ⟨⟨5, [("axl".toList, 10)], 5000000000, .bondWorker svc⟩, ?_, rfl⟩
    show lastOwn (served 10 (Chain.deployedLog exP (leavePlain 4))) svc 5 = _
    decide +kernel)
  refine ⟨hx, ?_⟩
  rw [hsucc, b hx]
  rfl

theorem leave_last : lastOwn (served 10 (Chain.deployedLog exP (leavePlain 5))) svc 5 =
    some ⟨5, [], 50000000000, .unbondWorker svc⟩ := by decide +kernel

theorem leave_registered : registered (served 10 (Chain.deployedLog exP (leavePlain 5))) svc = some ⟨10, "axl".toList, 1⟩ := by
  decide +kernel

theorem leave_stake : deposits (served 10 (Chain.deployedLog exP (leavePlain 5))) svc "axl".toList 5 -
    payouts (served 10 (Chain.deployedLog exP (leavePlain 5))) svc 5 = 10 := by decide +kernel

/-- `C118_claim` applies: after the period worker 5 gets its 10 coins back -/
example : ∃ l, served 10 (textDeployedLog exTexture exP (leaveUpTo 6)) =
    l ++ [(⟨5, [], 100000000000000, .claimStake svc⟩, { sends := [(5, ("axl".toList, 10))] })] := by
  have hsucc := leave_succ (n := 5) (tx := leaveClaim) rfl
  obtain ⟨a, b⟩ := C118_claim (P := exP) ex_sound exP_bytes (leaveUpTo 5) (written exTexture leaveClaim)
    (by rw [← hsucc]; exact leave_range 6) (by rw [← hsucc]; exact leave_apart 6) 10 1 (by rw [leave_setup]; rfl) svc [] rfl (by decide)
    (served 10 (Chain.deployedLog exP (leavePlain 5))) (by rw [leave_log])
  obtain ⟨sv, h1, h2⟩ := b (a.mpr ⟨_, _, leave_registered, leave_last, rfl, by decide⟩)
  rw [leave_registered] at h1
  cases h1
  refine ⟨_, by
    rw [hsucc, h2]
    show _ = served 10 (Chain.deployedLog exP (leavePlain 5)) ++ _
    rw [show deposits (served 10 (Chain.deployedLog exP (leavePlain 5))) svc "axl".toList (written exTexture leaveClaim).sender -
      payouts (served 10 (Chain.deployedLog exP (leavePlain 5))) svc (written exTexture leaveClaim).sender = 10 from leave_stake]
    rfl⟩

/-- `C118_active` applies: before it left, worker 5 is on the list, and afterwards it is not -/
example : (∃ text ws, query exTexture exP (textDeployedWorld exTexture exP (leaveUpTo 4)) 10
      ((UserQuestion.contract (.activeWorkers svc eth)).json exTexture.T).render = some text ∧
    (UserQuestion.contract (.activeWorkers svc eth)).readText exTexture text = some (.contract (.workers ws)) ∧
    ∃ w ∈ ws, w.address = 5) ∧
    ∃ text ws, query exTexture exP (textDeployedWorld exTexture exP (leaveUpTo 5)) 10
      ((UserQuestion.contract (.activeWorkers svc eth)).json exTexture.T).render = some text ∧
    (UserQuestion.contract (.activeWorkers svc eth)).readText exTexture text = some (.contract (.workers ws)) ∧
    ¬ ∃ w ∈ ws, w.address = 5 := by
  constructor
  · obtain ⟨text, ws, h1, h2, -, h4⟩ := C118_active (P := exP) ex_sound exP_octets exP_four (leaveUpTo 4) (leave_range 4) (leave_apart 4)
      10 1 (by rw [leave_setup]; rfl) svc eth ⟨by decide, by decide, by decide⟩ (served 10 (Chain.deployedLog exP (leavePlain 4))) (by rw [leave_log])
      ⟨10, "axl".toList, 1⟩ (by decide +kernel)
    refine ⟨text, ws, h1, h2, (h4 5).mpr ⟨?_, ⟨⟨5, [("axl".toList, 10)], 5000000000, .bondWorker svc⟩, by decide +kernel, rfl⟩,
      by decide +kernel, by decide +kernel⟩⟩
    refine ⟨(⟨5, [], 5000000000, .declareChainSupport svc [eth, sui]⟩, { sends := [] }), by decide +kernel, rfl, [eth, sui], rfl, by simp⟩
  · obtain ⟨text, ws, h1, h2, -, h4⟩ := C118_active (P := exP) ex_sound exP_octets exP_four (leaveUpTo 5) (leave_range 5) (leave_apart 5)
      10 1 (by rw [leave_setup]; rfl) svc eth ⟨by decide, by decide, by decide⟩ (served 10 (Chain.deployedLog exP (leavePlain 5))) (by rw [leave_log])
      ⟨10, "axl".toList, 1⟩ leave_registered
    refine ⟨text, ws, h1, h2, fun h => ?_⟩
    obtain ⟨-, ⟨u, hu, hmsg⟩, -, -⟩ := (h4 5).mp h
    rw [leave_last] at hu
    cases hu
    cases hmsg

end Amp.Wire
