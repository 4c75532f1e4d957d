import Verif.Proofs.Kept
import Verif.Props.Sessions

/-! # Where the configuration of a token comes from -/

namespace Kry

variable {M : Mechs} {C : Crypto} {O : Oracle}

/-- Every slot was configured by a C_Initialize of the run. -/
theorem cfg_from (d : List (Nat × Db)) (tr : Trace) {i : Nat} {sl : Slot} (h : AMap.get (after M C O d tr).slots i = some sl) :
    ∃ p ∈ tr, ∃ conf, p.2 = .initialize conf ∧ (i, sl.token.cfg) ∈ conf := by
  have key : ∀ (tr : Trace) (s : St) (P : Nat → TokCfg → Prop), Inv s →
      (∀ i sl, AMap.get s.slots i = some sl → P i sl.token.cfg) →
      (∀ p ∈ tr, ∀ conf, p.2 = .initialize conf → ∀ q ∈ conf, P q.1 q.2) →
      ∀ i sl, AMap.get (run M C O s tr).slots i = some sl → P i sl.token.cfg := by
    intro tr
    induction tr with
    | nil => intro s P _ h _; exact h
    | cons p tr ih =>
      intro s P hi h hm
      refine ih _ P (inv_step M O p.1 s p.2 hi) ?_ fun q hq => hm q (List.mem_cons_of_mem _ hq)
      intro i sl hs'
      have hm := hm p (List.mem_cons_self ..)
      obtain ⟨e, c⟩ := p
      simp only at hm hs'
      by_cases h1 : c = .finalize
      · subst h1
        simp only [step, fnFinalize] at hs'
        split at hs'
        · exact h i sl hs'
        · cases hs'
      by_cases h2 : c = .crash
      · subst h2; cases hs'
      cases hs : AMap.get s.slots i with
      | some sl0 =>
        obtain ⟨sl2, hs2, x⟩ := step_path (M := M) (O := O) (e := e) hi hs h1 h2
        rw [hs2] at hs'; injection hs' with hs'; subst hs'
        rw [path_cfg x]; exact h i _ hs
      | none =>
        obtain ⟨e', cfg, conf, hcc, hmem, _, hnew⟩ := step_new hs hs'
        subst hcc
        rw [cfg_new hnew]; exact hm _ rfl _ hmem
  exact key tr (St.init d) (fun i c => ∃ p ∈ tr, ∃ conf, p.2 = .initialize conf ∧ (i, c) ∈ conf) (inv_empty d 0)
    (fun i sl h => by cases h) (fun p hp conf hc q hq => ⟨p, hp, conf, hc, hq⟩) i sl h

end Kry
