import Verif.Wire.DeployTextSpec
import Verif.Wire.InstantiateProps
import Verif.Chain.DeployProps

/-!
# C105 as text: from a chain without contracts

Every history of texts, of which some instantiate contracts and some are sent to them, is a history of `Chain`.
-/

namespace Amp.Wire

open Amp.Router (ChainName CCId Message)
open Amp.Chain (Setup World Kind Store Entry)

variable {G : Texture} {P : Chain.Params}

theorem setupOf_cons_tx (t : Chain.Tx) (l : List Chain.Step) : Chain.setupOf (.tx t :: l) = Chain.setupOf l := rfl

/-- what instantiations say does not depend on transactions -/
theorem setupOf_steps (σ : Setup) (ts : List TextStep) :
    Chain.setupOf (ts.filterMap (stepMeaning G σ)) = Chain.setupOf (ts.filterMap (founding G)) := by
  induction ts with
  | nil => rfl
  | cons s t ih =>
    cases s with
    | tx x =>
      simp only [List.filterMap_cons, stepMeaning, founding]
      rw [setupOf_cons_tx]
      exact ih
    | found a p h text =>
      simp only [List.filterMap_cons, stepMeaning, founding]
      cases readOrder G p text with
      | none => exact ih
      | some o =>
        simp only [Option.map_some, Chain.setupOf]
        rw [ih]

/-- every contract of a history was instantiated by one of its texts -/
theorem founded_setup (ts : List TextStep) (hb : ∀ s ∈ ts, StepInRange s) : Founded G (textSetup G ts) := by
  induction ts with
  | nil => intro a k hk; cases hk
  | cons s t ih =>
    have ih := ih (fun x hx => hb x (List.mem_cons_of_mem _ hx))
    cases s with
    | tx x =>
      have : textSetup G (.tx x :: t) = textSetup G t := rfl
      rw [this]
      exact ih
    | found a p h text =>
      intro b k hk
      unfold textSetup at hk
      simp only [List.filterMap_cons, founding] at hk
      cases ho : readOrder G p text with
      | none =>
        rw [ho] at hk
        exact ih b k hk
      | some o =>
        rw [ho] at hk
        simp only [Option.map_some, Chain.setupOf] at hk
        split at hk
        · cases hk
          exact ⟨p, text, o, h, ho, hb _ (List.mem_cons_self ..), rfl⟩
        · exact ih b k hk

theorem init_typed {p : Party} {text : Str} {o : Order} {h : Nat} (ho : readOrder G p text = some o) (hh : h ≤ u64Max) :
    StoreTyped G.L (o.kind h).init := by
  have hf : Founded G (fun x => if x = 0 then some (o.kind h) else none) := by
    intro a k hk
    dsimp only at hk
    split at hk
    · cases hk; exact ⟨p, text, o, h, ho, hh, rfl⟩
    · cases hk
  exact typed_genesis (C104_setup hf).1 0 _ rfl

/-- the contracts in a storage are of the kinds of the history -/
def OfKind (σ : Setup) (w : World) : Prop := ∀ a s, w a = some s → partyAt σ a = some (party s)

theorem says_partial {σ : Setup} {w : World} (hk : OfKind σ w) (t : TextTx) (ht : InRange t) :
    TxSays G (fun a => (w a).map party) t (meaning G σ t) := by
  obtain ⟨e1, e2, e3, e4, h⟩ := says_meaning (G := G) (setup := σ) t ht
  refine ⟨e1, e2, e3, e4, h.imp ?_⟩
  rintro q p ⟨f1, f2, f3, f4, f5⟩
  refine ⟨f1, f2, f3, f4, fun k hq => f5 k ?_⟩
  obtain ⟨s, hs, rfl⟩ := Option.map_eq_some_iff.mp hq
  exact hk _ s hs

theorem history_text (hG : Sound G) (hX : ∀ b, IsBytes (P.X.keccak b)) (σ : Setup) : ∀ (ts : List TextStep) (w : World),
    (∀ s ∈ ts, StepInRange s) → WorldTyped G.L w → OfKind σ w →
    (∀ a, w a = none → textSetup G ts a = σ a) →
    runCalls (stepText G P) w ts = runCalls (Chain.stepExec P) w (ts.filterMap (stepMeaning G σ)) ∧
    (outs (stepText G P) w ts).flatMap Prod.snd =
      (outs (Chain.stepExec P) w (ts.filterMap (stepMeaning G σ))).flatMap Prod.snd := by
  intro ts
  induction ts with
  | nil => intro w _ _ _ _; exact ⟨rfl, rfl⟩
  | cons s t ih =>
    intro w hb hw hk hσ
    have hb' : ∀ x ∈ t, StepInRange x := fun x hx => hb x (List.mem_cons_of_mem _ hx)
    cases s with
    | tx x =>
      have hx : InRange x := hb _ (List.mem_cons_self ..)
      have hs := exec_same (P := P) hG hX (σ := fun a => (w a).map party) (fun _ => rfl) hw hx (says_partial hk x hx)
      have hσ' : ∀ a, w a = none → textSetup G t a = σ a := hσ
      have em : (TextStep.tx x :: t).filterMap (stepMeaning G σ) =
          Chain.Step.tx (meaning G σ x) :: t.filterMap (stepMeaning G σ) := rfl
      rw [em]
      simp only [runCalls_cons, outs]
      have q1 : stepText G P w (.tx x) = execText G P w x := rfl
      have q2 : Chain.stepExec P w (.tx (meaning G σ x)) = Chain.exec P w (meaning G σ x) := rfl
      rw [q1, q2]
      cases hq : execText G P w x with
      | error e =>
        cases hp : Chain.exec P w (meaning G σ x) with
        | error e' => exact ih w hb' hw hk hσ'
        | ok y => rw [hq, hp] at hs; exact hs.elim
      | ok y =>
        cases hp : Chain.exec P w (meaning G σ x) with
        | error e' => rw [hq, hp] at hs; exact hs.elim
        | ok z =>
          obtain ⟨w1, es⟩ := y
          obtain ⟨w1', es'⟩ := z
          rw [hq, hp] at hs
          obtain ⟨rfl, rfl, hσ1, hw1, -⟩ := hs
          obtain ⟨i1, i2⟩ := ih w1 hb' hw1
            (fun a s hs => by
              have : (w1 a).map party = (w a).map party := hσ1 a
              rw [hs] at this
              cases hwa : w a with
              | none => rw [hwa] at this; cases this
              | some s' =>
                rw [hwa] at this
                rw [hk a s' hwa]
                exact this.symm)
            (fun a hn => by
              refine hσ' a ?_
              have : (w1 a).map party = (w a).map party := hσ1 a
              rw [hn] at this
              cases hwa : w a with
              | none => rfl
              | some s' => rw [hwa] at this; cases this)
          exact ⟨i1, by simp only [List.flatMap_cons, i2]⟩
    | found a p h text =>
      cases ho : readOrder G p text with
      | none =>
        have em : (TextStep.found a p h text :: t).filterMap (stepMeaning G σ) = t.filterMap (stepMeaning G σ) := by
          simp only [List.filterMap_cons, stepMeaning, founding, ho, Option.map_none]
        have et : textSetup G (.found a p h text :: t) = textSetup G t := by
          simp only [textSetup, List.filterMap_cons, founding, ho, Option.map_none]
        rw [et] at hσ
        have q1 : stepText G P w (.found a p h text) = .error () := by simp only [stepText, ho]
        rw [em]
        simp only [runCalls_cons, outs, q1]
        exact ih w hb' hw hk hσ
      | some o =>
        have em : (TextStep.found a p h text :: t).filterMap (stepMeaning G σ) =
            Chain.Step.found a (o.kind h) :: t.filterMap (stepMeaning G σ) := by
          simp only [List.filterMap_cons, stepMeaning, founding, ho, Option.map_some]
        have et : textSetup G (.found a p h text :: t) = fun x => if x = a then some (o.kind h) else textSetup G t x := by
          simp only [textSetup, List.filterMap_cons, founding, ho, Option.map_some, Chain.setupOf]
        rw [et] at hσ
        dsimp only at hσ
        rw [em]
        have q : stepText G P w (.found a p h text) = Chain.stepExec P w (.found a (o.kind h)) := by
          simp only [stepText, ho, Chain.stepExec]
        simp only [runCalls_cons, outs, q]
        cases hwa : w a with
        | some s =>
          have q2 : Chain.stepExec P w (.found a (o.kind h)) = .error () := by
            simp only [Chain.stepExec, hwa]; rfl
          simp only [q2]
          refine ih w hb' hw hk (fun x hx => ?_)
          have hxa : x ≠ a := by rintro rfl; rw [hwa] at hx; cases hx
          have := hσ x hx
          rwa [if_neg hxa] at this
        | none =>
          have q2 := (Chain.C105_founded P w a (o.kind h)).1 hwa
          simp only [q2]
          have ha := hσ a hwa
          rw [if_pos rfl] at ha
          obtain ⟨i1, i2⟩ := ih (w.set a (o.kind h).init) hb' (hw.set (init_typed ho (hb _ (List.mem_cons_self ..))))
            (fun x s hs => by
              by_cases hxa : x = a
              · subst hxa
                rw [KV.set_self] at hs
                cases hs
                unfold partyAt
                rw [← ha]
                rfl
              · rw [KV.set_ne _ _ hxa] at hs
                exact hk x s hs)
            (fun x hx => by
              have hxa : x ≠ a := by rintro rfl; rw [KV.set_self] at hx; cases hx
              rw [KV.set_ne _ _ hxa] at hx
              have := hσ x hx
              rwa [if_neg hxa] at this)
          exact ⟨i1, by simp only [List.flatMap_cons, i2]⟩

/-- C105: a history of texts from a chain without contracts does what the history that it says does, and its contracts were
instantiated. -/
theorem C105_text (hG : Sound G) (hX : ∀ b, IsBytes (P.X.keccak b)) (ts : List TextStep) (hb : ∀ s ∈ ts, StepInRange s) :
    textDeployedWorld G P ts = Chain.deployedWorld P (steps G ts) ∧
    textDeployedLog G P ts = Chain.deployedLog P (steps G ts) ∧
    Chain.setupOf (steps G ts) = textSetup G ts ∧ Founded G (textSetup G ts) := by
  obtain ⟨h1, h2⟩ := history_text (P := P) hG hX (textSetup G ts) ts Chain.nothing hb (fun _ _ h => by cases h)
    (fun _ _ h => by cases h) (fun _ _ => rfl)
  exact ⟨h1, h2, setupOf_steps _ ts, founded_setup ts hb⟩

theorem steps_apart {ts : List TextStep} (ha : TextApart G ts) : Chain.Apart (steps G ts) := by
  intro t ht a hn
  have e : Chain.setupOf (steps G ts) = textSetup G ts := setupOf_steps _ ts
  rw [e] at hn
  obtain ⟨s, hs, he⟩ := List.mem_filterMap.mp ht
  cases s with
  | tx x =>
    simp only [stepMeaning, Option.some.injEq, Chain.Step.tx.injEq] at he
    subst he
    exact ha x hs a hn
  | found b p h text =>
    simp only [stepMeaning, founding] at he
    cases ho : readOrder G p text <;> rw [ho] at he <;> simp at he

/-- C105: such a history is a history of contracts that were there from the start, with configurations that meet what other
properties assume of them. -/
theorem C105_history (hG : Sound G) (hX : ∀ b, IsBytes (P.X.keccak b)) (ts : List TextStep) (hb : ∀ s ∈ ts, StepInRange s)
    (ha : TextApart G ts) :
    textDeployedWorld G P ts = Chain.worldAfter P (textSetup G ts) (Chain.succeeded P (steps G ts)) ∧
    (textDeployedLog G P ts).map Entry.blind =
      (Chain.log P (textSetup G ts) (Chain.succeeded P (steps G ts))).map Entry.blind ∧
    SetupTyped G.L (textSetup G ts) ∧ SetupInRange (textSetup G ts) ∧
    ∀ a c, textSetup G ts a = some (.verifier c) → c.Valid := by
  obtain ⟨h1, h2, h3, h4⟩ := C105_text (P := P) hG hX ts hb
  obtain ⟨g1, g2⟩ := Chain.C105_deployed P (steps G ts) (steps_apart ha)
  rw [h3] at g1 g2
  obtain ⟨f1, f2, f3, -⟩ := C104_setup h4
  exact ⟨by rw [h1]; exact g1, by rw [h2]; exact g2, f1, f2, f3⟩

/-- C105 with C72: from a chain without contracts, whatever texts are sent to it: if the router of the gateway at `a`, its nexus
gateway, the gateways registered there and their verifiers are contracts of this repository, then a message that the gateway
answers with was injected by the nexus module, or given to the router by a gateway whose verifier reports it as verified. -/
theorem C105_delivered_text (hG : Sound G) (hX : ∀ b, IsBytes (P.X.keccak b)) (ts : List TextStep)
    (hb : ∀ s ∈ ts, StepInRange s) (ha : TextApart G ts) (R : Addr) (rc : Router.Config) (nc : Nexus.Config)
    (hR : textSetup G ts R = some (.router rc)) (hN : textSetup G ts rc.nexusGateway = some (.nexus nc))
    (hg : ∀ e ∈ textDeployedLog G P ts, e.p.target = R → ∀ n g,
      e.p.msg = .router (.registerChain n g) ∨ e.p.msg = .router (.upgradeGateway n g) →
      ∃ gc vc, textSetup G ts g = some (.gateway gc) ∧ textSetup G ts gc.verifier = some (.verifier vc))
    (a : Addr) (gc : Gateway.Config) (hga : textSetup G ts a = some (.gateway gc)) (hr : gc.router = R) (id : CCId) (m : Message)
    (h : Chain.askGateway (textDeployedWorld G P ts) a [id] = .ok [m]) :
    m.ccId = id ∧ (Chain.InjectedByNexus (textDeployedLog G P ts) rc.nexusGateway nc m ∨
      ∃ e ∈ textDeployedLog G P ts, ∃ g ms gc', e.p = ⟨g, R, e.p.funds, .route ms⟩ ∧ m ∈ ms ∧
        textSetup G ts g = some (.gateway gc') ∧
        Chain.askVerifier P (textDeployedWorld G P ts) gc'.verifier [m] = some [(m.ccId, true)]) := by
  obtain ⟨h1, h2, h3, h4⟩ := C105_text (P := P) hG hX ts hb
  have hv := (C104_setup h4).2.2.1
  have hw : Chain.Wired (Chain.setupOf (steps G ts)) (Chain.deployedLog P (steps G ts)) R rc nc := by
    rw [h3, ← h2]
    refine ⟨hR, hN, fun e he ht n g hm => ?_⟩
    obtain ⟨gc, vc, x1, x2⟩ := hg e he ht n g hm
    exact ⟨gc, vc, x1, x2, hv _ _ x2⟩
  have := Chain.C105_delivered P (steps G ts) (steps_apart ha) R rc nc hw a gc (by rw [h3]; exact hga) hr id m
    (by rw [← h1]; exact h)
  rw [h3, ← h2, ← h1] at this
  exact this

end Amp.Wire
