import Verif.Wire.DeployTextProps
import Verif.Wire.InstantiateExamples
import Verif.Wire.LogLemmas

/-!
# Concrete cases for C105
-/

namespace Amp.Wire

open Amp.Chain (exP exSetup exMsg1 exMsg3 exRegisters Kind)

/-- a contract of the example is instantiated -/
def exFound (i : Nat) : TextStep :=
  match exOrders[i]? with
  | some x => .found x.1 x.2.conf.party 1 (writeOrder exTexture x.2)
  | none => .found 0 .gateway 1 []

def exSome (i n : Nat) : List TextStep := ((exTextTxs.drop i).take n).map .tx

/-- The contracts are instantiated along the way: the registry, used before the others exist; the router, a verifier with a text
that is refused and then again, a gateway, the registry again, which is refused; chains are registered, one with a gateway
that does not exist yet; the prover is called before it exists, which fails. -/
def exSteps : List TextStep := [exFound 0] ++ exSome 0 8 ++ [exFound 4, .found 12 .verifier 1 "{}".toList, exFound 2, exFound 3,
  exFound 0] ++ exSome 8 2 ++ [exFound 8, exFound 1] ++ exSome 10 4 ++ exSome 14 1 ++ [exFound 9, exFound 7, exFound 6, exFound 5] ++
  exSome 14 11

theorem exSteps_range : ∀ s ∈ exSteps, StepInRange s := by
  have h : ∀ s ∈ exSteps, (match s with
    | .tx t => t.block.height ≤ u64Max ∧ t.block.time ≤ u64Max ∧ ∀ m ∈ t.msgs, ∀ c ∈ m.2.1, c.2 ≤ u128Max
    | .found _ _ height _ => height ≤ u64Max : Prop) := by
    intro s hs
    have key : exSteps.all (fun s => match s with
      | .tx t => decide (t.block.height ≤ u64Max ∧ t.block.time ≤ u64Max ∧ ∀ m ∈ t.msgs, ∀ c ∈ m.2.1, c.2 ≤ u128Max)
      | .found _ _ height _ => decide (height ≤ u64Max)) = true := by decide +kernel
    have := List.all_eq_true.mp key s hs
    cases s <;> exact of_decide_eq_true this
  intro s hs
  have := h s hs
  cases s with
  | tx t => exact ⟨this.1, this.2.1, this.2.2⟩
  | found a p n text => exact this

/-- the contract that a step instantiates -/
def exNew (s : TextStep) : Option (Addr × Kind) :=
  match founding exTexture s with
  | some (.found a k) => some (a, k)
  | _ => none

theorem setup_lookup (ts : List TextStep) : ∀ a, textSetup exTexture ts a = (ts.filterMap exNew).lookup a := by
  intro a
  induction ts with
  | nil => rfl
  | cons s t ih =>
    unfold textSetup at ih ⊢
    simp only [List.filterMap_cons, exNew]
    cases s with
    | tx x => exact ih
    | found b p h text =>
      simp only [founding]
      cases readOrder exTexture p text with
      | none => exact ih
      | some o =>
        simp only [Option.map_some, Chain.setupOf, List.lookup_cons]
        by_cases hab : a = b
        · simp [hab]
        · have : (a == b) = false := by simpa using hab
          rw [if_neg hab, this]
          exact ih

deriving instance DecidableEq for Kind

theorem exSteps_new : exSteps.filterMap exNew = [(10, .registry 1), (14, .router ⟨1, 1, 15⟩),
      (12, .verifier ⟨10, Chain.svc, "0xgw".toList, ⟨2, 3⟩, 10, 1, Chain.eth, 11⟩), (13, .gateway ⟨12, 14⟩),
      (10, .registry 1), (18, .multisig ⟨1, 11, 5⟩),
      (11, .rewards ⟨1, "axl".toList⟩ ⟨100, 1000, ⟨1, 2⟩⟩ 1),
      (19, .prover ⟨17, 18, 10, 16, 10, ⟨2, 3⟩, Chain.sui, 1, .bcs⟩ Chain.svc .ecdsa), (17, .gateway ⟨16, 14⟩),
      (16, .verifier ⟨10, Chain.svc, "0x2".toList, ⟨2, 3⟩, 10, 1, Chain.sui, 11⟩), (15, .nexus ⟨2, 14⟩)] := by
  decide +kernel

theorem exSteps_setup : textSetup exTexture exSteps = exSetup := by
  funext a
  rw [setup_lookup, exSteps_new]
  by_cases h10 : a = 10
  · subst h10; rfl
  by_cases h11 : a = 11
  · subst h11; rfl
  by_cases h12 : a = 12
  · subst h12; rfl
  by_cases h13 : a = 13
  · subst h13; rfl
  by_cases h14 : a = 14
  · subst h14; rfl
  by_cases h15 : a = 15
  · subst h15; rfl
  by_cases h16 : a = 16
  · subst h16; rfl
  by_cases h17 : a = 17
  · subst h17; rfl
  by_cases h18 : a = 18
  · subst h18; rfl
  by_cases h19 : a = 19
  · subst h19; rfl
  have e : ∀ n : Nat, a ≠ n → (a == n) = false := fun n h => by simpa using h
  simp only [List.lookup_cons, e _ h10, e _ h11, e _ h12, e _ h13, e _ h14, e _ h15, e _ h16, e _ h17, e _ h18, e _ h19,
    List.lookup_nil]
  unfold exSetup
  split <;> first | rfl | contradiction

/-! the same steps without texts -/

def exFoundPlain (i : Nat) : Chain.Step :=
  match exOrders[i]? with
  | some x => .found x.1 (x.2.kind 1)
  | none => .found 0 (.gateway ⟨0, 0⟩)

def exSomePlain (i n : Nat) : List Chain.Step := ((exPlainTxs.drop i).take n).map .tx

def exPlainSteps : List Chain.Step := [exFoundPlain 0] ++ exSomePlain 0 8 ++ [exFoundPlain 4, exFoundPlain 2, exFoundPlain 3,
  exFoundPlain 0] ++ exSomePlain 8 2 ++ [exFoundPlain 8, exFoundPlain 1] ++ exSomePlain 10 4 ++ exSomePlain 14 1 ++
  [exFoundPlain 9, exFoundPlain 7, exFoundPlain 6, exFoundPlain 5] ++ exSomePlain 14 11

theorem exFound_meaning (i : Nat) (hi : i < exOrders.length) :
    stepMeaning exTexture exSetup (exFound i) = some (exFoundPlain i) := by
  have h := exOrders_read exOrders[i] (List.getElem_mem hi)
  unfold exFound exFoundPlain
  rw [List.getElem?_eq_getElem hi]
  show (readOrder exTexture _ _).map _ = _
  rw [h]
  rfl

theorem exMeaning {tx : Chain.Tx} (h : tx ∈ exPlainTxs) : meaning exTexture exSetup (written exTexture tx) = tx := by
  have key : tx.msgs.map ((fun m => (m.1, m.2.1, meant exTexture exSetup m.1 m.2.2)) ∘
      (fun m => (m.1, m.2.1, write exTexture m.2.2))) = tx.msgs := by
    refine (List.map_congr_left (fun m hm => ?_)).trans (List.map_id _)
    have := exPlain_read tx h m hm
    show (m.1, m.2.1, meant exTexture exSetup m.1 (write exTexture m.2.2)) = m
    have e : meant exTexture exSetup m.1 (write exTexture m.2.2) = m.2.2 := by
      unfold partyAt at this
      unfold meant
      cases hs : exSetup m.1 with
      | none => rw [hs] at this; cases this
      | some k =>
        rw [hs] at this
        have this : readFor exTexture (party k.init) (write exTexture m.2.2) = some m.2.2 := this
        simp only [this]
    rw [e]
  unfold meaning written
  rw [List.map_map, key]

theorem exSome_meaning (i n : Nat) : (exSome i n).filterMap (stepMeaning exTexture exSetup) = exSomePlain i n := by
  unfold exSome exSomePlain exTextTxs
  rw [← List.map_drop, ← List.map_take, List.map_map, List.filterMap_map]
  refine filterMap_all (fun tx htx => ?_)
  show some (Chain.Step.tx (meaning exTexture exSetup (written exTexture tx))) = _
  rw [exMeaning (List.mem_of_mem_drop (List.mem_of_mem_take htx))]

theorem exSteps_plain : steps exTexture exSteps = exPlainSteps := by
  unfold steps
  rw [exSteps_setup]
  unfold exSteps exPlainSteps
  have hno : stepMeaning exTexture exSetup (.found 12 .verifier 1 "{}".toList) = none := by
    show (readOrder exTexture .verifier "{}".toList).map (fun o => Chain.Step.found 12 (o.kind 1)) = none
    rw [show readOrder exTexture .verifier "{}".toList = none from by decide +kernel]
    rfl
  have f : ∀ i, i < 10 → stepMeaning exTexture exSetup (exFound i) = some (exFoundPlain i) := fun i h => exFound_meaning i h
  simp only [List.filterMap_append, exSome_meaning, List.filterMap_cons, List.filterMap_nil, hno, f 0 (by decide), f 1 (by decide),
    f 2 (by decide), f 3 (by decide), f 4 (by decide), f 5 (by decide), f 6 (by decide), f 7 (by decide), f 8 (by decide),
    f 9 (by decide)]

theorem exSteps_world : textDeployedWorld exTexture exP exSteps = Chain.deployedWorld exP exPlainSteps := by
  rw [(C105_text (P := exP) ex_sound exP_bytes exSteps exSteps_range).1, exSteps_plain]

theorem exSteps_log : textDeployedLog exTexture exP exSteps = Chain.deployedLog exP exPlainSteps := by
  rw [(C105_text (P := exP) ex_sound exP_bytes exSteps exSteps_range).2.1, exSteps_plain]

/-- every step but three succeeds: the refused text, the second registry and the call to the missing prover fail -/
example : exSteps.length = 38 ∧ exPlainSteps.length = 37 ∧ (outs (Chain.stepExec exP) Chain.nothing exPlainSteps).length = 35 := by
  decide +kernel

example : (textDeployedLog exTexture exP exSteps).map (fun e => (e.p.sender, e.p.target)) =
    (textLog exTexture exP exSetup exTextTxs).map (fun e => (e.p.sender, e.p.target)) := by
  rw [exSteps_log, exText_log exP_bytes]; decide +kernel

theorem exSteps_apart : TextApart exTexture exSteps := by
  intro t ht a ha
  have hm : a ∈ (exSteps.filterMap exNew).map Prod.fst := by
    rw [setup_lookup] at ha
    by_contra h
    refine ha (List.lookup_eq_none_iff.mpr (fun p hp => ?_))
    have : a ≠ p.1 := by rintro rfl; exact h (List.mem_map_of_mem hp)
    simpa using this
  rw [exSteps_new] at hm
  have key : exSteps.all (fun s => match s with
      | .tx t => decide (∀ a ∈ ([10, 14, 12, 13, 10, 18, 11, 19, 17, 16, 15] : List Addr), t.sender ≠ a ∧ t.accepts a = false)
      | .found _ _ _ _ => true) = true := by decide +kernel
  exact of_decide_eq_true (List.all_eq_true.mp key _ ht) a hm

/-- the gateway of `sui` has a message from `eth`, and one from nexus -/
theorem exSteps_messages : Chain.askGateway (textDeployedWorld exTexture exP exSteps) 17 [exMsg1.ccId] = .ok [exMsg1] ∧
    Chain.askGateway (textDeployedWorld exTexture exP exSteps) 17 [exMsg3.ccId] = .ok [exMsg3] := by
  rw [exSteps_world]
  constructor <;> decide +kernel

example : exMsg1.ccId = exMsg1.ccId ∧ (Chain.InjectedByNexus (textDeployedLog exTexture exP exSteps) 15 ⟨2, 14⟩ exMsg1 ∨
      ∃ e ∈ textDeployedLog exTexture exP exSteps, ∃ g ms gc', e.p = ⟨g, 14, e.p.funds, .route ms⟩ ∧ exMsg1 ∈ ms ∧
        textSetup exTexture exSteps g = some (.gateway gc') ∧
        Chain.askVerifier exP (textDeployedWorld exTexture exP exSteps) gc'.verifier [exMsg1] =
          some [(exMsg1.ccId, true)]) := by
  refine C105_delivered_text ex_sound exP_bytes exSteps exSteps_range exSteps_apart 14 ⟨1, 1, 15⟩ ⟨2, 14⟩
    (by rw [setup_lookup, exSteps_new]; rfl) (by rw [setup_lookup, exSteps_new]; rfl) ?_ 17 ⟨16, 14⟩
    (by rw [setup_lookup, exSteps_new]; rfl) rfl _ _ exSteps_messages.1
  intro e he _ n g hm
  have key : (textDeployedLog exTexture exP exSteps).all (fun e => exRegisters e.p.msg) = true := by
    rw [exSteps_log]; decide +kernel
  have h := List.all_eq_true.mp key e he
  have hg : g = 13 ∨ g = 17 := by
    rcases hm with hm | hm <;> rw [hm] at h <;> exact of_decide_eq_true h
  rcases hg with rfl | rfl
  · exact ⟨_, _, by rw [setup_lookup, exSteps_new]; rfl, by rw [setup_lookup, exSteps_new]; rfl⟩
  · exact ⟨_, _, by rw [setup_lookup, exSteps_new]; rfl, by rw [setup_lookup, exSteps_new]; rfl⟩

/-- and as a history of contracts that were there from the start -/
example : textDeployedWorld exTexture exP exSteps =
    Chain.worldAfter exP (textSetup exTexture exSteps) (Chain.succeeded exP (steps exTexture exSteps)) ∧
    (Chain.succeeded exP (steps exTexture exSteps)).length = 25 := by
  constructor
  · exact (C105_history (P := exP) ex_sound exP_bytes exSteps exSteps_range exSteps_apart).1
  · rw [exSteps_plain]; decide +kernel

end Amp.Wire
