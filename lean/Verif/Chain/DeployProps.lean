import Verif.Chain.DeployLemmas
import Verif.Chain.Props

/-!
# C105: contracts may be instantiated at any time
-/

namespace Amp.Chain

open Amp.Router (ChainName CCId Message)

/-- C105: a history in which contracts are instantiated along the way leaves the same storages as the history of its
successful transactions with all of its contracts there from the start, and the same messages are delivered with the same
responses in both. -/
theorem C105_deployed (P : Params) (steps : List Step) (ha : Apart steps) :
    deployedWorld P steps = worldAfter P (setupOf steps) (succeeded P steps) ∧
    (deployedLog P steps).map Entry.blind = (log P (setupOf steps) (succeeded P steps)).map Entry.blind := by
  have hg : fill (setupOf steps) nothing = genesis (setupOf steps) := rfl
  have := history_fill (P := P) (setupOf steps) steps nothing (fun t ht => ⟨?_, fun a h => (ha t ht a h).2⟩) (fun _ _ => rfl)
  · rw [hg] at this
    exact this
  · by_contra h
    exact (ha t ht _ h).1 rfl

/-- C105: an instantiation fails only if there is a contract at the address; contracts that it names need not exist. -/
theorem C105_founded (P : Params) (w : World) (a : Addr) (k : Kind) :
    (w a = none → stepExec P w (.found a k) = .ok (w.set a k.init, [])) ∧
    ((∃ x, stepExec P w (.found a k) = .ok x) → w a = none) := by
  constructor
  · intro h
    simp only [stepExec, h]
    rfl
  · rintro ⟨x, hx⟩
    simp only [stepExec] at hx
    cases h : w a with
    | none => rfl
    | some s => rw [h] at hx; cases hx

/-- C105 with C72: what a gateway delivers was injected by the nexus module, or given to the router by a gateway whose verifier
reports it as verified, also if the contracts were instantiated along the way. -/
theorem C105_delivered (P : Params) (steps : List Step) (ha : Apart steps) (R : Addr) (rc : Router.Config) (nc : Nexus.Config)
    (hw : Wired (setupOf steps) (deployedLog P steps) R rc nc) (G : Addr) (gc : Gateway.Config)
    (hG : setupOf steps G = some (.gateway gc)) (hr : gc.router = R) (id : CCId) (m : Message)
    (h : askGateway (deployedWorld P steps) G [id] = .ok [m]) :
    m.ccId = id ∧ (InjectedByNexus (deployedLog P steps) rc.nexusGateway nc m ∨
      ∃ e ∈ deployedLog P steps, ∃ g ms gc', e.p = ⟨g, R, e.p.funds, .route ms⟩ ∧ m ∈ ms ∧
        setupOf steps g = some (.gateway gc') ∧
        askVerifier P (deployedWorld P steps) gc'.verifier [m] = some [(m.ccId, true)]) := by
  obtain ⟨e1, e2⟩ := C105_deployed P steps ha
  have mem : ∀ {l l' : List Entry}, l.map Entry.blind = l'.map Entry.blind → ∀ e ∈ l', ∃ e' ∈ l, e'.p = e.p := by
    intro l l' hl e he
    have : e.blind ∈ l.map Entry.blind := by rw [hl]; exact List.mem_map_of_mem he
    obtain ⟨e', he', hb⟩ := List.mem_map.mp this
    exact ⟨e', he', (congrArg Entry.p hb : e'.blind.p = e.blind.p)⟩
  have hw' : Wired (setupOf steps) (log P (setupOf steps) (succeeded P steps)) R rc nc :=
    ⟨hw.router, hw.nexus, fun e he => by
      obtain ⟨e', he', hp⟩ := mem e2 e he
      rw [← hp]
      exact hw.gateways e' he'⟩
  rw [e1] at h ⊢
  obtain ⟨h1, h2⟩ := C72_delivered P _ _ R rc nc hw' G gc hG hr id m h
  refine ⟨h1, h2.imp ?_ ?_⟩
  · rintro ⟨e, he, x⟩
    obtain ⟨e', he', hp⟩ := mem e2 e he
    refine ⟨e', he', ?_⟩
    rw [hp]
    exact x
  · rintro ⟨l₁, e, l₂, ms, g, gc', hl, hp, hm, -, hg, -, hv⟩
    obtain ⟨e', he', hp'⟩ := mem e2 e (by rw [hl]; simp)
    exact ⟨e', he', g, ms, gc', by rw [hp']; exact hp, hm, hg, hv⟩

end Amp.Chain
