import Verif.Model.PqCalls
import Verif.Props.C79
import Verif.Props.C89
import Verif.Props.C90

/-!
# C91: ML-DSA and SLH-DSA through the calls of a session

* `C91_signed`: what C_Sign and C_SignFinal give out is a signature of the standards over the M' of the data, or of the parts accepted.  `C91_gives`: it is given out.
* `C91_verified`: what a verification accepts.  `C91_verdict_partial`: what it answers, with CKR_DEVICE_ERROR for a signature that is not accepted.
* `C91_roundtrip`: a signature made through one session is accepted through any other with the public key, also by another mechanism with the same M'.
* `C91_whole`: CKM_HASH_ML_DSA and CKM_HASH_SLH_DSA take no parts.
* `C91_invalid_violation`: a wrong signature is not answered with CKR_SIGNATURE_INVALID.
-/

namespace Kry
namespace Spec

/-- Key object `o` is made of `key`. -/
def pqKeyIs (slh : Bool) (k : OpKind) (key : PqKey) (o : Obj) : Prop :=
  o.getUlong CKA_PARAMETER_SET = .ok key.set ∧ o.getBytes CKA_VALUE = .ok key.value ∧ (key.priv = true ↔ k = .sign) ∧
  key.seed = if k = .sign ∧ slh = false then (match o.getBytes CKA_SEED with | .error _ => none | .ok x => some x) else none

end Spec

open Spec

variable {M : Mechs} {C : Crypto} {O : Oracle} {K : PqKeys} {mem : Bytes → PqParam} {k : OpKind} {m : Nat}

/-! ## The operation object -/

/-- What an operation has in common with another. -/
structure PqFixed (b o : PqOp) : Prop where
  mech : o.mech = b.mech
  pars : o.pars = b.pars
  told : o.told = b.told
  size : o.hashsize = b.hashsize
  signs : o.sigctx.signs = b.sigctx.signs
  mode : o.sigctx.mode = b.sigctx.mode
  updates : o.sigctx.updates = b.sigctx.updates

theorem fixed_with {b o : PqOp} (h : PqFixed b o) :
    pqWith b o.finalized o.inUse o.hasher o.signature o.sigctx.data o.sigctx.signature o.sigctx.fed o.sigctx.given = o := by
  obtain ⟨h1, h2, h3, h4, h5, h6, h7⟩ := h
  obtain ⟨a1, a2, a3, ⟨c1, c2, c3, c4, c5, c6, c7⟩, a5, a6, a7, a8, a9⟩ := o
  simp only at h1 h2 h3 h4 h5 h6 h7
  unfold pqWith
  rw [← h1, ← h2, ← h3, ← h4, ← h5, ← h6, ← h7]

theorem fixed_fed {b o : PqOp} (h : PqFixed b o) (d : Bytes) : PqFixed b (fedOp o d) := by
  obtain ⟨h1, h2, h3, h4, h5, h6, h7⟩ := h
  unfold fedOp
  split
  · cases hu : o.sigctx.updates <;> exact ⟨h1, h2, h3, h4, h5, h6, h7⟩
  · exact ⟨h1, h2, h3, h4, h5, h6, h7⟩

theorem pqOf_op {slh : Bool} {mech : PqMech} {q : Bytes} {key : PqKey} {b o : PqOp} (ht : pqTab.lookup m = some (slh, mech)) (hb : pqBase K mem slh mech q key none = .ok b)
    (hf : PqFixed b o) : pqOf K mem (pqOp m q key o) = some (slh, q, key, o) := by
  unfold pqOf
  have : unpackL 12 (pqOp m q key o).data = [q, packBool key.priv, packNat key.set, key.value, packSig key.seed, packBool o.inUse, packSig o.hasher, packSig o.signature,
      packSig o.sigctx.data, packSig o.sigctx.signature, o.sigctx.fed, packSig o.sigctx.given] :=
    unpackL_pack [q, packBool key.priv, packNat key.set, key.value, packSig key.seed, packBool o.inUse, packSig o.hasher, packSig o.signature,
      packSig o.sigctx.data, packSig o.sigctx.signature, o.sigctx.fed, packSig o.sigctx.given]
  rw [this, show (pqOp m q key o).mech = m from rfl, ht]
  simp only [packSig_un, packBool_un, packNat_from, hb]
  rw [show (pqOp m q key o).fin = o.finalized from rfl, fixed_with hf]

theorem setup_pars {o o' : PqOp} (h : o.setup = .ok o') : o'.pars.sigsize = o.pars.sigsize := by
  unfold PqOp.setup at h
  repeat' split at h
  all_goals first | (cases h; done) | (injection h with h; subst h; rfl)

theorem new_fixed {probe signs : Bool} {mech : PqMech} {set : PqSet} {param : Option PqParam} {sig : Option Bytes} {o : PqOp} (h : PqOp.new probe signs mech set param sig = .ok o) :
    (∃ b, PqOp.new probe signs mech set param none = .ok b ∧ PqFixed b o) ∧ o.pars.sigsize = set.sigSize := by
  unfold PqOp.new at h ⊢
  cases hp : PqPars.new mech set param with
  | error r => rw [hp] at h; cases h
  | ok pars =>
    rw [hp] at h
    simp only at h ⊢
    have hsz : pars.sigsize = set.sigSize := by
      unfold PqPars.new at hp
      simp only at hp
      repeat' split at hp
      all_goals first | (cases hp; done) | (injection hp with hp; subst hp; rfl)
    cases hs : PqOp.setup { mech := mech, pars := pars, told := pars.told mech, sigctx := { signs := signs, mode := .message, updates := set.updates probe } } with
    | error r => rw [hs] at h; cases h
    | ok b =>
      rw [hs] at h
      simp only at h ⊢
      have hbs := (setup_pars hs).trans hsz
      have same : PqFixed b b := ⟨rfl, rfl, rfl, rfl, rfl, rfl, rfl⟩
      by_cases hsg : signs = true
      · rw [if_pos hsg] at h ⊢
        injection h with h
        subst h
        exact ⟨⟨b, rfl, same⟩, hbs⟩
      · rw [if_neg hsg] at h ⊢
        cases sig with
        | none =>
          injection h with h
          subst h
          exact ⟨⟨b, rfl, same⟩, hbs⟩
        | some s =>
          simp only at h
          unfold PqOp.setSignature OsslSig.setSignature at h
          repeat' split at h
          all_goals first | (cases h; done) | skip
          all_goals (injection h with h; subst h)
          · rename_i hx
            repeat' split at hx
            all_goals first | (cases hx; done) | skip
            all_goals (injection hx with hx; subst hx; exact ⟨⟨b, rfl, rfl, rfl, rfl, rfl, rfl, rfl, rfl⟩, hbs⟩)
          · exact ⟨⟨b, rfl, rfl, rfl, rfl, rfl, rfl, rfl, rfl⟩, hbs⟩

/-! ## Answers -/

/-- The result for all data at once. -/
def pqOnce' (E : PqEnv) (k : OpKind) (o : PqOp) (x sg : Bytes) : Res Bytes :=
  match k with
  | .sign => (o.sign E x o.pars.sigsize).1
  | .verify => (pqNothing (o.verify E x (some sg))).1
  | _ => (pqNothing (o.verify E x none)).1

/-- The answer for a message. -/
def pqSaid (E : PqEnv) (k : OpKind) (o : PqOp) (x : Bytes) (b : OpIn) : Out := macSaid k (pqOnce' E k o x b.sig)

/-- The errors of an operation. -/
def pqErr (r : Rv) : Prop := r = .generalError ∨ r = .deviceError ∨ r = .dataLenRange ∨ r = .mechanismParamInvalid

theorem rv_err (e : OsslErr) : pqErr e.rv := by cases e <;> simp [pqErr, OsslErr.rv]

theorem mPrime_err {p : PqPars} {x : Bytes} {r : Rv} (h : p.mPrime x = .error r) : pqErr r := by
  unfold PqPars.mPrime at h
  repeat' split at h
  all_goals first | (cases h; done) | skip
  all_goals (injection h with h; subst h; simp [pqErr])

theorem signHash_err {E : PqEnv} {o : PqOp} {x : Bytes} {n : Nat} {r : Rv} (h : o.signHash E x n = .error r) : pqErr r := by
  unfold PqOp.signHash at h
  split at h
  · rename_i hm; injection h with h; subst h; exact mPrime_err hm
  · split at h
    · injection h with h; subst h; exact rv_err _
    · split at h
      · injection h with h; subst h; simp [pqErr]
      · cases h

theorem verifyHash_err {E : PqEnv} {o : PqOp} {x s : Bytes} {g : Option Bytes} {r : Rv} (hg : claimed g o.signature = some s) (h : o.verifyHash E x g = .error r) : pqErr r := by
  unfold PqOp.verifyHash at h
  have hg' : (g.orElse fun _ => o.signature) = some s := by cases g <;> exact hg
  rw [hg'] at h
  split at h
  · rename_i hm; injection h with h; subst h; exact mPrime_err hm
  · simp only at h
    split at h
    · injection h with h; subst h; exact rv_err _
    · cases h

theorem signFinal_err {E : PqEnv} {o : PqOp} {n : Nat} {r : Rv} (h1 : o.inUse = true) (h2 : o.finalized = false) (h : (o.signFinal E n).1 = .error r) : pqErr r := by
  unfold PqOp.signFinal at h
  rw [h1, h2] at h
  simp only [Bool.not_true, Bool.false_eq_true, if_false] at h
  repeat' split at h
  all_goals first
    | (injection h with h; subst h; first | exact rv_err _ | (simp [pqErr]; done))
    | exact signHash_err h
    | (cases h; done)
    | skip

section
variable {E : PqEnv} {A : PqCore} {mech : PqMech} {set : PqSet} {param : Option PqParam} {sig q : Bytes} {b0 o : PqOp} {key : PqKey} {probe : Bool} {slh : Bool}

theorem fits_all (hc : mech = .pure → set.updates probe = true) (x : Bytes) : pqFits mech (!set.updates probe) x := by
  intro h h'
  rw [hc h] at h'
  cases h'

/-- All data at once are like one part and the end. -/
theorem once_parts {signs : Bool} {given : Option Bytes} (hc : mech = .pure → set.updates probe = true) (hm : mech ≠ .prehash) (k : PqMade probe signs mech set param given o) (x : Bytes) (n : Nat)
    (g : Option Bytes) : o.sign E x n = (fedOp o x).signFinal E n ∧ o.verify E x g = (fedOp o x).verifyFinal E g := by
  unfold PqOp.sign PqOp.verify
  rw [k.use, k.final, k.hmech]
  simp only [Bool.false_eq_true, if_false]
  rw [if_neg hm, if_neg hm, (update_made k hm x).1 (fits_all hc x)]
  exact ⟨rfl, rfl⟩

/-- The signature a verification is about. -/
theorem given_claimed {b : OpIn} (hk : k = .verify ∨ k = .verifySig) : claimed (if k = .verify then some b.sig else none) (givenFor k sig) = some (if k = .verify then b.sig else sig) := by
  rcases hk with h | h <;> subst h <;> rfl

theorem once_verify {x sg : Bytes} (hk : k = .verify ∨ k = .verifySig) : pqOnce' E k o x sg = (pqNothing (o.verify E x (if k = .verify then some sg else none))).1 := by
  rcases hk with h | h <;> subst h <;> rfl

theorem once_err {given : Option Bytes} {x : Bytes} {b : OpIn} {r : Rv} (F : Spec.Follows E A set.sigSize) (hc : mech = .pure → set.updates probe = true) (hk : k = .sign ∨ k = .verify ∨ k = .verifySig)
    (hgv : given = givenFor k sig) (hd : PqMade probe (decide (k = .sign)) mech set param given o) (h : pqOnce' E k o x b.sig = .error r) : pqErr r := by
  subst hgv
  by_cases hm : mech = .prehash
  · subst hm
    rcases hk with hk | hk
    · subst hk
      change (o.sign E x o.pars.sigsize).1 = _ at h
      unfold PqOp.sign at h
      rw [hd.use, hd.final, hd.hmech] at h
      simp only [Bool.false_eq_true, if_false, if_true] at h
      split at h
      · injection h with h; subst h; simp [pqErr]
      · exact signHash_err h
    · have hs : decide (k = .sign) = false := by rcases hk with h | h <;> subst h <;> rfl
      rw [once_verify hk] at h
      have hg : claimed (if k = .verify then some b.sig else none) o.signature = some (if k = .verify then b.sig else sig) := by
        rcases hk with h | h <;> subst h
        · rfl
        · exact (hd.hsig rfl sig rfl).2.2.2 (by intro hc; cases hc)
      unfold PqOp.verify at h
      rw [hd.use, hd.final, hd.hmech] at h
      simp only [Bool.false_eq_true, if_false, if_true] at h
      split at h
      · injection h with h; subst h; simp [pqErr]
      · unfold pqNothing at h
        split at h
        · rename_i he
          injection he with he _
          injection h with h
          subst h
          exact verifyHash_err (o := { o with finalized := true }) hg he
        · cases h
  · rcases hk with hk | hk
    · subst hk
      change (o.sign E x o.pars.sigsize).1 = _ at h
      rw [(once_parts hc hm hd x _ none).1] at h
      exact signFinal_err (fedOp_mech o x).2.2.1 ((fedOp_mech o x).2.1.trans hd.final) h
    · have hs : decide (k = .sign) = false := by rcases hk with h | h <;> subst h <;> rfl
      rw [hs] at hd
      rw [once_verify hk, (once_parts hc hm hd x 0 _).2] at h
      have := verifyFinal_spec F hd hm x _ (given_claimed (b := b) hk)
      unfold pqNothing at h
      split at h
      · rename_i r' o' he
        rw [he] at this
        simp only at this
        injection h with h
        subst h
        repeat' split at this
        all_goals first | (cases this; done) | skip
        all_goals (injection this with this; subst this; simp [pqErr])
      · cases h

theorem pqSaid_on {given : Option Bytes} {x : Bytes} {b : OpIn} (F : Spec.Follows E A set.sigSize) (hc : mech = .pure → set.updates probe = true) (hk : k = .sign ∨ k = .verify ∨ k = .verifySig)
    (hgv : given = givenFor k sig) (hd : PqMade probe (decide (k = .sign)) mech set param given o) : ¬ goesOn (pqSaid E k o x b) := by
  unfold pqSaid
  cases h : pqOnce' E k o x b.sig with
  | error r =>
    have := once_err F hc hk hgv hd h
    unfold macSaid
    simp only [goesOn]
    rcases this with h | h | h | h <;> subst h <;> simp
  | ok x => unfold macSaid; split <;> (try split) <;> simp_all [goesOn]

/-- States of an operation object made as `o`. -/
def pqIs (m : Nat) (q : Bytes) (key : PqKey) (o : PqOp) : Feeding → Op → Prop
  | .taking d u, v => v = pqOp m q key (if u then fedOp o d else o) ∧ (u = false → d = []) ∧ (o.mech = .prehash → u = false)
  | .ended, v => ∃ o', v = pqOp m q key o' ∧ o'.finalized = true

theorem run_pq (ht : pqTab.lookup m = some (slh, mech)) (hl : K.load slh key = some E) (hb : pqBase K mem slh mech q key none = .ok b0) {o : PqOp} (hf : PqFixed b0 o)
    (e : Env) (a : Act) (i : OpIn) : runOp (withPq M K mem) e k a (pqOp m q key o) i = ((pqRun E k a o i).1, pqOp m q key (pqRun E k a o i).2) := by
  unfold runOp withPq
  simp only [show (pqOp m q key o).mech = m from rfl, ht, Option.isSome_some, if_true]
  unfold pqDo
  rw [pqOf_op ht hb hf]
  simp only [show (pqOp m q key o).mech = m from rfl, hl]
  rfl

theorem pq_more {signs : Bool} {given : Option Bytes} (hc : mech = .pure → set.updates probe = true) (hm : mech ≠ .prehash) (hd : PqMade probe signs mech set param given o) (d x : Bytes) (u : Bool)
    (hu : u = false → d = []) : (if u then fedOp o d else o).update x = (.ok (), fedOp o (d ++ x)) := by
  cases u with
  | true => exact (update_fed hd hm d x).1 (fits_all hc _)
  | false =>
    have := hu rfl
    subst this
    exact (update_made hd hm x).1 (fits_all hc _)

theorem pq_never {signs : Bool} {given : Option Bytes} (hm : mech = .prehash) (hd : PqMade probe signs mech set param given o) (x : Bytes) :
    o.update x = (.error .operationNotInitialized, { o with inUse := true, finalized := true }) := by
  unfold PqOp.update
  rw [hd.final, if_neg (by decide)]
  simp only [hd.hmech, hm]

theorem final_done {n : Nat} {g : Option Bytes} {o : PqOp} (hu : o.inUse = true) : (o.signFinal E n).2.finalized = true ∧ (o.verifyFinal E g).2.finalized = true := by
  constructor
  · unfold PqOp.signFinal
    rw [hu]
    by_cases c : o.finalized = true
    · simp [c]
    · simp only [Bool.not_true, Bool.false_eq_true, if_false, c]
      repeat' split
      all_goals rfl
  · unfold PqOp.verifyFinal
    rw [hu]
    by_cases c : o.finalized = true
    · simp [c]
    · simp only [Bool.not_true, Bool.false_eq_true, if_false, c]
      repeat' split
      all_goals rfl

theorem nothing_snd (p : Res Unit × PqOp) : (pqNothing p).2 = p.2 := by
  unfold pqNothing
  split <;> rfl

theorem pq_solo {given : Option Bytes} (ht : pqTab.lookup m = some (slh, mech)) (hl : K.load slh key = some E) (hb : pqBase K mem slh mech q key none = .ok b0) (hf : PqFixed b0 o)
    (hsz : o.pars.sigsize = set.sigSize) (hc : mech = .pure → set.updates probe = true)
    (hk : k = .sign ∨ k = .verify ∨ k = .verifySig) (hnew : PqOp.new probe (decide (k = .sign)) mech set param given = .ok o) (e : Env) (a : Act) (b : OpIn) (s : Feeding) (v : Op)
    (hR : pqIs m q key o s v) :
    (solo (withPq M K mem) e k a b v).1 = (sigTalk k set.sigSize (decide (mech ≠ .prehash)) true (pqSaid E k o) s a b).1 ∧
    pqIs m q key o (sigTalk k set.sigSize (decide (mech ≠ .prehash)) true (pqSaid E k o) s a b).2 (solo (withPq M K mem) e k a b v).2 := by
  have hd := new_made hnew
  cases s with
  | ended =>
    obtain ⟨o', rfl, hf⟩ := hR
    unfold solo sigTalk
    by_cases hc : soloCall a
    · rw [if_pos hc, if_pos hc, if_pos (show (pqOp m q key o').fin = true from hf)]
      exact ⟨rfl, o', rfl, hf⟩
    · rw [if_neg hc, if_neg hc]
      exact ⟨rfl, o', rfl, hf⟩
  | taking d u =>
    obtain ⟨rfl, hu, hpre⟩ := hR
    have hf' : PqFixed b0 (if u then fedOp o d else o) := by
      cases u
      · exact hf
      · exact fixed_fed hf d
    have hfin : (if u then fedOp o d else o).finalized = false := by
      cases u
      · exact hd.final
      · exact (fedOp_mech o d).2.1.trans hd.final
    have hpars : (if u then fedOp o d else o).pars = o.pars := by
      cases u
      · rfl
      · exact (fedOp_mech o d).2.2.2.1
    have huse : (if u then fedOp o d else o).inUse = u := by
      cases u
      · exact hd.use
      · exact (fedOp_mech o d).2.2.1
    have hlen : ∀ a l, (lenOp (withPq M K mem) k a (pqOp m q key (if u then fedOp o d else o)) l).1 = .ok set.sigSize := by
      intro a l
      unfold lenOp withPq
      simp only [show (pqOp m q key (if u then fedOp o d else o)).mech = m from rfl, ht, Option.isSome_some, if_true]
      unfold pqLen
      rw [pqOf_op ht hb hf']
      simp only [hpars, hsz]
    rw [solo_sig hk (show (pqOp m q key (if u then fedOp o d else o)).fin = false from hfin) hlen]
    unfold sigTalk
    by_cases hca : soloCall a
    case neg => rw [if_neg hca, if_neg hca]; exact ⟨rfl, rfl, hu, hpre⟩
    rw [if_pos hca, if_pos hca]
    simp only
    by_cases ha : a = .update
    · rw [if_pos ha, if_pos ha]
      unfold soloFeed
      rw [run_pq ht hl hb hf']
      show (match (pqNothing ((if u then fedOp o d else o).update b.data)).1 with
        | .error r => Out.err r
        | .ok _ => .ok) = _ ∧ pqIs m q key o _ (pqOp m q key (pqNothing ((if u then fedOp o d else o).update b.data)).2)
      by_cases hm : mech = .prehash
      · have hu0 := hpre (hd.hmech.trans hm)
        subst hu0
        rw [if_neg (show ¬ false = true by decide), pq_never hm hd, if_neg (by rw [decide_eq_false (fun h => h hm)]; decide)]
        exact ⟨rfl, _, rfl, rfl⟩
      · rw [pq_more hc hm hd d b.data u hu, if_pos (decide_eq_true hm)]
        exact ⟨rfl, rfl, nofun, fun h => absurd (hd.hmech.symm.trans h) hm⟩
    rw [if_neg ha, if_neg ha]
    cases hg : macGate k set.sigSize b with
    | some r => exact ⟨rfl, rfl, hu, hpre⟩
    | none =>
      simp only
      rw [run_pq ht hl hb hf']
      by_cases h1 : a = .oneShot
      · subst h1
        rw [if_pos rfl]
        cases u with
        | true =>
          have hrun : pqRun E k .oneShot (fedOp o d) b = (.error .operationNotInitialized, fedOp o d) := by
            have hu' : (fedOp o d).inUse = true := (fedOp_mech o d).2.2.1
            rcases hk with hk | hk | hk <;> subst hk <;> unfold pqRun <;> simp only [PqOp.sign, PqOp.verify, hu', if_true] <;> rfl
          rw [if_pos rfl, hrun]
          exact ⟨rfl, rfl, nofun, hpre⟩
        | false =>
          have := hu rfl; subst this
          obtain ⟨f1, f2, -⟩ := C79_finished E hnew b.data o.pars.sigsize (if k = .verify then some b.sig else none)
          refine ⟨?_, _, rfl, ?_⟩
          · unfold pqSaid
            rcases hk with hk | hk | hk <;> subst hk <;> rfl
          · rcases hk with hk | hk | hk <;> subst hk
            · exact f1
            · exact (congrArg PqOp.finalized (nothing_snd _)).trans f2
            · exact (congrArg PqOp.finalized (nothing_snd _)).trans f2
      · rw [if_neg h1]
        have h2 : a = .final := by
          rcases hca with h | h | h
          · exact absurd h h1
          · exact absurd h ha
          · exact h
        subst h2
        cases u with
        | true =>
          have hm : mech ≠ .prehash := fun h => by have := hpre (hd.hmech.trans h); cases this
          have hu' : (fedOp o d).inUse = true := (fedOp_mech o d).2.2.1
          have hp := once_parts (E := E) hc hm hd d o.pars.sigsize (if k = .verify then some b.sig else none)
          have hdone := final_done (E := E) (n := o.pars.sigsize) (g := if k = .verify then some b.sig else none) hu'
          rw [if_pos rfl]
          refine ⟨?_, _, rfl, ?_⟩
          · unfold pqSaid
            rcases hk with hk | hk | hk <;> subst hk
            · show macSaid .sign ((fedOp o d).signFinal E (fedOp o d).pars.sigsize).1 = macSaid .sign (o.sign E d o.pars.sigsize).1
              rw [hp.1, (fedOp_mech o d).2.2.2.1]
            · show macSaid .verify (pqNothing ((fedOp o d).verifyFinal E (some b.sig))).1 = macSaid .verify (pqNothing (o.verify E d (some b.sig))).1
              have := hp.2
              rw [if_pos rfl] at this
              rw [this]
            · show macSaid .verifySig (pqNothing ((fedOp o d).verifyFinal E none)).1 = macSaid .verifySig (pqNothing (o.verify E d none)).1
              have := hp.2
              rw [if_neg (by decide)] at this
              rw [this]
          · rcases hk with hk | hk | hk <;> subst hk
            · show ((fedOp o d).signFinal E (fedOp o d).pars.sigsize).2.finalized = true
              rw [(fedOp_mech o d).2.2.2.1]
              exact hdone.1
            · exact (congrArg PqOp.finalized (nothing_snd _)).trans hdone.2
            · exact (congrArg PqOp.finalized (nothing_snd _)).trans hdone.2
        | false =>
          have hrun : pqRun E k .final o b = (.error .operationNotInitialized, o) := by
            have hu' : o.inUse = false := hd.use
            rcases hk with hk | hk | hk <;> subst hk <;> unfold pqRun <;> simp only [PqOp.signFinal, PqOp.verifyFinal, hu', Bool.not_false, if_true] <;> rfl
          rw [if_neg (show ¬ false = true by decide), hrun]
          exact ⟨rfl, rfl, hu, hpre⟩

end

/-! ## In the machine -/

theorem withPq_stateless (hm : (pqTab.lookup m).isSome = true) : Stateless (withPq M K mem) m where
  new := by
    intro e k q key sig op h
    unfold withPq at h
    simp only [hm, if_true] at h
    split at h
    · unfold pqStart at h
      repeat' split at h
      all_goals first | (cases h; done) | skip
      all_goals (injection h with h; subst h; rfl)
    · cases h
  run := by
    intro e k a op i hop hu
    show (if (pqTab.lookup op.mech).isSome = true then _ else _ : Res Bytes × Op).2.upd = none
    rw [if_pos (hop ▸ hm)]
    unfold pqDo
    repeat' split
    all_goals first | exact hu | rfl
  len := by
    intro k a op n hop hu
    show (if (pqTab.lookup op.mech).isSome = true then _ else _ : Res Nat × Op).2.upd = none
    rw [if_pos (hop ▸ hm)]
    exact hu

/-- The attributes that were read. -/
theorem pqKey_is {slh : Bool} {key : PqKey} {x : Obj} (h : pqKeyIs slh k key x) : pqKeyOf slh (decide (k = .sign)) x = .ok key := by
  obtain ⟨h1, h2, h3, h4⟩ := h
  obtain ⟨pr, st, v, sd⟩ := key
  simp only at h1 h2 h3 h4
  have hpr : pr = decide (k = .sign) := by
    cases pr with
    | true => exact (decide_eq_true (h3.1 rfl)).symm
    | false => exact (decide_eq_false (fun hc => by have := h3.2 hc; cases this)).symm
  unfold pqKeyOf
  rw [h1]
  simp only
  rw [h2]
  simp only
  rw [h4, hpr]
  by_cases hs : k = .sign
  · cases slh <;> cases x.getBytes CKA_SEED <;> simp [hs]
  · simp [hs]

/-- A successful start. -/
theorem pq_started {e : Env} {q sig : Bytes} {key : PqKey} {x : Obj} {op : Op} {E : PqEnv} {slh : Bool} {mech : PqMech} {set : PqSet} {param : Option PqParam}
    (ht : pqTab.lookup m = some (slh, mech)) (hv : pqKeyIs slh k key x) (hset : (pqSetTab slh).lookup key.set = some set) (hp : pqParamOf mem mech q = .ok param)
    (h : newOp (withPq M K mem) e k m q (some x) sig = .ok op) :
    ∃ o, PqOp.new K.probe (decide (k = .sign)) mech set param (givenFor k sig) = .ok o ∧ op = pqOp m q key o := by
  have hpr : key.priv = decide (k = .sign) := by
    obtain ⟨-, -, h3, -⟩ := hv
    cases hc : key.priv with
    | true => exact (decide_eq_true (h3.1 hc)).symm
    | false => exact (decide_eq_false (fun hk => by have := h3.2 hk; rw [hc] at this; cases this)).symm
  unfold newOp at h
  simp only at h
  split at h
  · cases h
  · cases hn : (withPq M K mem).new e k m q (some x) sig with
    | error r => rw [hn] at h; cases h
    | ok o' =>
      rw [hn] at h
      injection h with h
      unfold withPq at hn
      simp only [ht, Option.isSome_some, if_true] at hn
      unfold pqStart at hn
      rw [ht] at hn
      simp only at hn
      rw [pqKey_is hv] at hn
      simp only at hn
      have hb : pqBase K mem slh mech q key (if k = .verifySig then some sig else none) = PqOp.new K.probe (decide (k = .sign)) mech set param (givenFor k sig) := by
        unfold pqBase
        rw [hset]
        simp only
        rw [hp, hpr]
        rfl
      rw [hb] at hn
      cases ho : PqOp.new K.probe (decide (k = .sign)) mech set param (givenFor k sig) with
      | error r => rw [ho] at hn; cases hn
      | ok o =>
        rw [ho] at hn
        simp only at hn
        split at hn
        · cases hn
        · injection hn with hn
          refine ⟨o, rfl, ?_⟩
          rw [← h, ← hn]
          have hf := (new_made ho).final
          unfold pqOp
          rw [hf]

variable {d : List (Nat × Db)} {tr tr2 : Trace} {e : Env} {h i key : Nat} {q sig : Bytes} {Y X : List ((Act × OpIn) × Out)} {b : OpIn} {r : Out} {a : Act}
variable {A : PqCore} {kd : PqKey} {E : PqEnv} {slh : Bool} {mech : PqMech} {set : PqSet} {param : Option PqParam}

/-- A mechanism of the table, its parameter and a key of it; OpenSSL takes messages for CKM_ML_DSA in parts. -/
structure PqUse (K : PqKeys) (mem : Bytes → PqParam) (m : Nat) (q : Bytes) (slh : Bool) (mech : PqMech) (kd : PqKey) (set : PqSet) (param : Option PqParam) (E : PqEnv) (A : PqCore) : Prop where
  known : pqTab.lookup m = some (slh, mech)
  sized : (pqSetTab slh).lookup kd.set = some set
  given : pqParamOf mem mech q = .ok param
  load : K.load slh kd = some E
  parts : mech = .pure → set.updates K.probe = true
  ossl : Spec.Follows E A set.sigSize

/-- What the user of an ML-DSA or SLH-DSA mechanism sees. -/
theorem C91_talk (U : PqUse K mem m q slh mech kd set param E A) (hk : k = .sign ∨ k = .verify ∨ k = .verifySig)
    (hX : Went (withPq M K mem) C O d tr e h i k m q key sig (pqKeyIs slh k kd) tr2 X) :
    ∃ o, PqOp.new K.probe (decide (k = .sign)) mech set param (givenFor k sig) = .ok o ∧
      X.map (·.2) = (describe (sigTalk k set.sigSize (decide (mech ≠ .prehash)) true (pqSaid E k o)) (.taking [] false) (X.map (·.1))).1 := by
  have hmm : manyMessages k = false := by rcases hk with h | h | h <;> subst h <;> rfl
  have hd : k ≠ .digest := by rcases hk with h | h | h <;> subst h <;> decide
  have hs : Stateless (withPq M K mem) m := withPq_stateless (by rw [U.known]; rfl)
  obtain ⟨x, op, hx, hn⟩ := went_new hs hd hX
  obtain ⟨o, ho, -⟩ := pq_started (E := E) U.known hx U.sized U.given hn
  have hpr : kd.priv = decide (k = .sign) := by
    obtain ⟨-, -, h3, -⟩ := hx
    cases hc : kd.priv with
    | true => exact (decide_eq_true (h3.1 hc)).symm
    | false => exact (decide_eq_false (fun hk => by have := h3.2 hk; rw [hc] at this; cases this)).symm
  obtain ⟨⟨b0, hb, hf⟩, hsz⟩ := new_fixed ho
  have hbase : pqBase K mem slh mech q kd none = .ok b0 := by
    unfold pqBase
    rw [U.sized]
    simp only
    rw [U.given, hpr]
    exact hb
  refine ⟨o, ho, went_sim (R := pqIs m q kd o) hs hmm hd hX ?_ (pq_solo U.known U.load hbase hf hsz U.parts hk ho) ?_⟩
  · intro s w hw
    cases s with
    | taking d u => obtain ⟨rfl, -⟩ := hw; exact ⟨rfl, rfl⟩
    | ended => obtain ⟨o', rfl, -⟩ := hw; exact ⟨rfl, rfl⟩
  · intro x' op' hx' hn'
    obtain ⟨o2, ho2, rfl⟩ := pq_started (E := E) U.known hx' U.sized U.given hn'
    rw [ho] at ho2
    injection ho2 with ho2
    subst ho2
    exact ⟨rfl, fun _ => rfl, fun _ => rfl⟩

/-- **C91**: what C_Sign or C_SignFinal gives out is a signature of the standard over the M' of the data, or of the parts accepted, deterministic if the caller asked for that; its length
is that of the parameter set. -/
theorem C91_signed {x : Bytes} (U : PqUse K mem m q slh mech kd set param E A)
    (hX : Went (withPq M K mem) C O d tr e h i .sign m q key sig (pqKeyIs slh .sign kd) tr2 (Y ++ [((a, b), .bytes x)])) :
    (∃ w, toSign E.hash mech param (aboutMsg Y a b) = some w ∧ A.sign (wantsDet param) w = some x) ∧ x.length = set.sigSize := by
  obtain ⟨o, ho, t⟩ := C91_talk U (.inl rfl) hX
  have hu : a ≠ .update := by
    rintro rfl
    obtain ⟨-, y2⟩ := describe_last t
    revert y2
    show Out.bytes x = (sigTalk _ _ _ _ _ _ .update b).1 → False
    unfold sigTalk
    split
    · split
      · nofun
      · rw [if_pos rfl]; split <;> nofun
    · nofun
  obtain ⟨h1, -⟩ := sigTalk_result (fun _ _ => pqSaid_on U.ossl U.parts (.inl rfl) rfl (new_made ho)) t hu (fun z => z)
  have hsz := (new_fixed ho).2
  have h2 : (o.sign E (aboutMsg Y a b) set.sigSize).1 = .ok x := by
    change Out.bytes x = macSaid .sign (o.sign E (aboutMsg Y a b) o.pars.sigsize).1 at h1
    rw [hsz] at h1
    revert h1
    generalize (o.sign E (aboutMsg Y a b) set.sigSize).1 = z
    intro h1
    cases z with
    | error r => cases h1
    | ok z => injection h1 with h1; rw [h1]
  have h3 := (C79_signs U.ossl ho (fits_all U.parts _) x).1 h2
  exact ⟨h3, h3.elim fun w hw => U.ossl.size _ _ _ hw.2⟩

/-- **C91**: a signature that the algorithm makes is given out, if the buffer is large enough. -/
theorem C91_gives {room : Nat} {z w : Bytes} (U : PqUse K mem m q slh mech kd set param E A)
    (hX : Went (withPq M K mem) C O d tr e h i .sign m q key sig (pqKeyIs slh .sign kd) tr2 (Y ++ [((a, b), r)]))
    (ha : comesToEnd Y a) (ho : b.out = some room) (hr : set.sigSize ≤ room) (hw : toSign E.hash mech param (aboutMsg Y a b) = some w) (hz : A.sign (wantsDet param) w = some z) :
    r = .bytes z := by
  obtain ⟨o, hn, t⟩ := C91_talk U (.inl rfl) hX
  rw [sigTalk_ends (fun _ _ => pqSaid_on U.ossl U.parts (.inl rfl) rfl (new_made hn)) t ha (by
    unfold macGate
    rw [if_pos rfl, ho]
    simp only
    rw [if_neg (by omega)])]
  have h3 := (C79_signs U.ossl hn (fits_all U.parts (aboutMsg Y a b)) z).2 ⟨w, hw, hz⟩
  show macSaid .sign (o.sign E (aboutMsg Y a b) o.pars.sigsize).1 = _
  rw [(new_fixed hn).2, h3]
  rfl

/-- What a verification says. -/
theorem pq_verdict {x : Bytes} {o : PqOp} (U : PqUse K mem m q slh mech kd set param E A) (hk : k = .verify ∨ k = .verifySig)
    (ho : PqOp.new K.probe (decide (k = .sign)) mech set param (givenFor k sig) = .ok o) :
    (pqSaid E k o x b = .ok ↔ ∃ w, toSign E.hash mech param x = some w ∧ A.ver w (if k = .verify then b.sig else sig) = true) ∧
    (∀ w, toSign E.hash mech param x = some w → A.ver w (if k = .verify then b.sig else sig) = false → pqSaid E k o x b = .err .deviceError) := by
  have hs : decide (k = .sign) = false := by rcases hk with h | h <;> subst h <;> rfl
  have hs' : k ≠ .sign := by rcases hk with h | h <;> subst h <;> decide
  rw [hs] at ho
  obtain ⟨v1, v2⟩ := C79_verifies U.ossl ho (fits_all U.parts x) (given_claimed (b := b) hk)
  unfold pqSaid
  rw [once_verify hk]
  generalize o.verify E x (if k = .verify then some b.sig else none) = z at v1 v2
  obtain ⟨z, o'⟩ := z
  refine ⟨Iff.trans ?_ v1, fun w h1 h2 => ?_⟩
  · cases z with
    | error r =>
      constructor
      · intro h; cases h
      · intro h; cases h
    | ok u =>
      refine ⟨fun _ => rfl, fun _ => ?_⟩
      unfold pqNothing macSaid
      rcases hk with h | h <;> subst h <;> rfl
  · have := v2 w h1 h2
    simp only at this
    subst this
    rfl

/-- **C91**: what a verification accepts, the algorithm accepts: the signature of the call, or that of C_VerifySignatureInit, for the M' of the data, or of the parts accepted. -/
theorem C91_verified (U : PqUse K mem m q slh mech kd set param E A) (hk : k = .verify ∨ k = .verifySig) (hu : a ≠ .update)
    (hX : Went (withPq M K mem) C O d tr e h i k m q key sig (pqKeyIs slh k kd) tr2 (Y ++ [((a, b), .ok)])) :
    (∃ w, toSign E.hash mech param (aboutMsg Y a b) = some w ∧ A.ver w (if k = .verify then b.sig else sig) = true) ∧ (k = .verify → b.sig.length = set.sigSize) := by
  obtain ⟨o, ho, t⟩ := C91_talk U (.inr hk) hX
  obtain ⟨h1, h2⟩ := sigTalk_result (fun _ _ => pqSaid_on U.ossl U.parts (.inr hk) rfl (new_made ho)) t hu (fun z => z)
  refine ⟨(pq_verdict U hk ho).1.1 h1.symm, fun hv => ?_⟩
  exact rsa_gate h2 hv

/-- **C91**: what a verification answers.  Missing for the full statement: a signature that is not accepted should be answered with CKR_SIGNATURE_INVALID (`C91_invalid_violation`). -/
theorem C91_verdict_partial {w : Bytes} (U : PqUse K mem m q slh mech kd set param E A) (hk : k = .verify ∨ k = .verifySig)
    (hX : Went (withPq M K mem) C O d tr e h i k m q key sig (pqKeyIs slh k kd) tr2 (Y ++ [((a, b), r)])) (ha : comesToEnd Y a) (ho : k = .verify → b.sig.length = set.sigSize)
    (hw : toSign E.hash mech param (aboutMsg Y a b) = some w) : r = if A.ver w (if k = .verify then b.sig else sig) then .ok else .err .deviceError := by
  have hs : k ≠ .sign := by rcases hk with h | h <;> subst h <;> decide
  obtain ⟨o, hn, t⟩ := C91_talk U (.inr hk) hX
  rw [sigTalk_ends (fun _ _ => pqSaid_on U.ossl U.parts (.inr hk) rfl (new_made hn)) t ha (by
    unfold macGate
    rw [if_neg hs]
    split
    · rename_i hv; rw [ho hv]; simp
    · rfl)]
  obtain ⟨v1, v2⟩ := pq_verdict (b := b) (x := aboutMsg Y a b) U hk hn
  cases hv : A.ver w (if k = .verify then b.sig else sig) with
  | true => rw [if_pos rfl]; exact v1.2 ⟨w, hw, hv⟩
  | false => rw [if_neg (by decide)]; exact v2 w hw hv

/-- **C91**: a signature made with the private key through one session is accepted with the public key through any other, of this or another token, however the message is cut, and by
any mechanism that makes the same M' of what it is given: a digest computed by the caller may take the place of the message. -/
theorem C91_roundtrip {C' : Crypto} {O' : Oracle} {M' : Mechs} {d' : List (Nat × Db)} {tr' tr2' : Trace} {e' : Env} {h' i' key' m' : Nat} {q' sig' x w : Bytes} {kd' : PqKey}
    {Y' : List ((Act × OpIn) × Out)} {a' : Act} {b' : OpIn} {E' : PqEnv} {mech' : PqMech} {param' : Option PqParam} (law : ∀ u x s, A.sign u x = some s → A.ver x s = true)
    (U : PqUse K mem m q slh mech kd set param E A) (U' : PqUse K mem m' q' slh mech' kd' set param' E' A)
    (hX : Went (withPq M K mem) C O d tr e h i .sign m q key sig (pqKeyIs slh .sign kd) tr2 (Y ++ [((a, b), .bytes x)])) (hk : k = .verify ∨ k = .verifySig)
    (hX' : Went (withPq M' K mem) C' O' d' tr' e' h' i' k m' q' key' sig' (pqKeyIs slh k kd') tr2' (Y' ++ [((a', b'), r)])) (ha : comesToEnd Y' a')
    (hw : toSign E.hash mech param (aboutMsg Y a b) = some w) (hw' : toSign E'.hash mech' param' (aboutMsg Y' a' b') = some w) (hs : (if k = .verify then b'.sig else sig') = x) :
    r = .ok := by
  obtain ⟨⟨w2, h1, h2⟩, h3⟩ := C91_signed U hX
  rw [hw] at h1
  injection h1 with h1
  subst h1
  rw [C91_verdict_partial U' hk hX' ha ?_ hw', hs, law _ _ _ h2, if_pos rfl]
  intro hv
  rw [if_pos hv] at hs
  rw [hs, h3]

/-- **C91**: CKM_HASH_ML_DSA and CKM_HASH_SLH_DSA take no parts; after C_SignUpdate or C_VerifyUpdate no call gives a signature or a verdict. -/
theorem C91_whole (hm : m = CKM_HASH_ML_DSA ∨ m = CKM_HASH_SLH_DSA) (U : PqUse K mem m q slh mech kd set param E A) (hk : k = .sign ∨ k = .verify ∨ k = .verifySig)
    (hX : Went (withPq M K mem) C O d tr e h i k m q key sig (pqKeyIs slh k kd) tr2 (Y ++ [((a, b), r)])) (hp : somePart Y ∨ a = .update) :
    r ≠ .ok ∧ ∀ x, r ≠ .bytes x := by
  have hpre : mech = .prehash := by
    have := U.known
    rcases hm with h | h <;> subst h
    · rw [show pqTab.lookup CKM_HASH_ML_DSA = some (false, .prehash) by decide] at this
      injection this with this
      injection this with _ this
      exact this.symm
    · rw [show pqTab.lookup CKM_HASH_SLH_DSA = some (true, .prehash) by decide] at this
      injection this with this
      injection this with _ this
      exact this.symm
  subst hpre
  obtain ⟨o, -, t⟩ := C91_talk U hk hX
  rw [show decide (PqMech.prehash ≠ PqMech.prehash) = false by decide] at t
  obtain ⟨y1, y2⟩ := describe_last t
  change r = (sigTalk k _ _ _ _ _ a b).1 at y2
  subst y2
  by_cases hu : a = .update
  · subst hu
    generalize (describe (sigTalk k set.sigSize false true (pqSaid E k o)) (.taking [] false) (Y.map (·.1))).2 = st
    cases st <;> exact ⟨nofun, nofun⟩
  · obtain ⟨x, hx, hxu⟩ := hp.resolve_right hu
    rw [sigTalk_whole (Y.map (·.1)) _ ⟨x.1, List.mem_map_of_mem hx, hxu⟩]
    unfold sigTalk
    split <;> exact ⟨nofun, nofun⟩

/-! ## A case -/

/-- A toy in the place of OpenSSL: 2419 bytes 0x11 and the sum of the bytes of M'; nothing signs a message of less than 13 bytes. -/
def pqSum (x : Bytes) : Bytes := List.replicate 2419 0x11 ++ [x.foldl (· + ·) 0]

def pqSumCore : PqCore := ⟨fun _ x => if x.length < 13 then none else some (pqSum x), fun x s => decide (s = pqSum x)⟩

/-- An OpenSSL that follows it, with digests that are the message, cut or filled up. -/
def pqSumEnv : PqEnv := pqEnvOf pqSumCore 2420

theorem pqSum_follows : Spec.Follows pqSumEnv pqSumCore 2420 :=
  pqEnvOf_follows _ _ fun d m s h => by
    unfold pqSumCore at h
    simp only at h
    split at h
    · cases h
    · injection h with h
      subst h
      unfold pqSum
      rw [List.length_append, List.length_replicate]
      rfl

/-- Every key is a key of the toy algorithm; OpenSSL takes messages in parts. -/
def exPqK : PqKeys := ⟨fun _ _ => some pqSumEnv, true⟩

/-- What the parameters of the cases point to: context 5, 6, and SHA-256 as digest. -/
def exPqMem (_ : Bytes) : PqParam := ⟨2, [5, 6], .sha256⟩

abbrev exPqM : Mechs := withPq exMechs exPqK exPqMem

/-- A private key, a public key and two sessions. -/
def exPqStart : Trace :=
  [(exEnv 0, .initialize [(7, ⟨[CKM_ML_DSA, CKM_HASH_ML_DSA, CKM_HASH_ML_DSA_SHA256], none, none⟩)]), (exEnv 1, .initToken 7 exSoPin none),
   (exEnv 2, .openSession 7 (CKF_RW_SESSION ||| CKF_SERIAL_SESSION)),
   (exEnv 3, .login 1 CKU_SO exSoPin), (exEnv 4, .sess 1 (.initPin exPin)), (exEnv 5, .logout 1), (exEnv 6, .login 1 CKU_USER exPin),
   (exEnv 7, .sess 1 (.createObject [.ofUlong CKA_CLASS CKO_PRIVATE_KEY, .ofUlong CKA_KEY_TYPE CKK_ML_DSA,
     .ofUlong CKA_PARAMETER_SET CKP_ML_DSA_44, .mk' CKA_VALUE (List.replicate 2560 3), .mk' CKA_SEED (List.replicate 32 4), .ofBool CKA_SIGN true])),
   (exEnv 8, .sess 1 (.createObject [.ofUlong CKA_CLASS CKO_PUBLIC_KEY, .ofUlong CKA_KEY_TYPE CKK_ML_DSA,
     .ofUlong CKA_PARAMETER_SET CKP_ML_DSA_44, .mk' CKA_VALUE (List.replicate 1312 5), .ofBool CKA_VERIFY true])),
   (exEnv 9, .openSession 7 (CKF_RW_SESSION ||| CKF_SERIAL_SESSION))]

abbrev exPqSt : St := after exPqM exCrypto exOracle [] exPqStart
def exPqPriv : Obj := (readAt exCrypto exPqSt 7 9).getD (Obj.new 0)

/-- Parameters: a CK_SIGN_ADDITIONAL_CONTEXT and a CK_HASH_SIGN_ADDITIONAL_CONTEXT. -/
def exPqQ : Bytes := List.replicate 24 1
def exPqQ' : Bytes := List.replicate 32 1

/-- Signature of 5 bytes in two parts, with another operation on the other session, a query and a short buffer in between. -/
def exPqTr : Trace :=
  [(exEnv 11, .op 1 (.opRun .sign .update (exSIn [9, 9, 9] [] none))),
   (exEnv 12, .op 2 (.opInit .sign (some (CKM_ML_DSA, [])) 9 [])),
   (exEnv 13, .op 2 (.opRun .sign .oneShot (exSIn [5, 5] [] none))),
   (exEnv 14, .op 1 (.opRun .sign .final (exSIn [] [] none))),
   (exEnv 15, .op 1 (.opRun .sign .final (exSIn [] [] (some 2419)))),
   (exEnv 17, .op 1 (.opRun .sign .update (exSIn [4, 4] [] none))),
   (exEnv 18, .op 1 (.opRun .sign .final (exSIn [] [] (some 2420))))]

abbrev exPqStart' : Trace := exPqStart ++ (exEnv 10, .op 1 (.opInit .sign (some (CKM_HASH_ML_DSA_SHA256, exPqQ)) 9 [])) :: exPqTr
abbrev exPqSt' : St := after exPqM exCrypto exOracle [] exPqStart'
def exPqPub : Obj := (readAt exCrypto exPqSt' 7 10).getD (Obj.new 0)

/-- The signature. -/
def exPqSigned : Bytes := List.replicate 2419 0x11 ++ [222]

/-- The digest of the toy. -/
def exPqDigest : Bytes := [9, 9, 9, 4, 4] ++ List.replicate 27 0

def exPqTr' : Trace :=
  [(exEnv 21, .op 2 (.opRun .verify .oneShot (exSIn exPqDigest [1] none))), (exEnv 22, .sess 2 (.findInit [])),
   (exEnv 23, .op 2 (.opRun .verify .oneShot (exSIn exPqDigest exPqSigned none)))]

/-- The keys as they were given to OpenSSL. -/
def exPqKey (k : OpKind) : PqKey :=
  if k = .sign then ⟨true, CKP_ML_DSA_44, List.replicate 2560 3, some (List.replicate 32 4)⟩ else ⟨false, CKP_ML_DSA_44, List.replicate 1312 5, none⟩

/-- The exchange before C_SignFinal. -/
def exPqY : List ((Act × OpIn) × Out) :=
  [((.update, exSIn [9, 9, 9] [] none), .ok), ((.final, exSIn [] [] none), .size 2420), ((.final, exSIn [] [] (some 2419)), .err .bufferTooSmall),
   ((.update, exSIn [4, 4] [] none), .ok)]

/-- A signature of a wrong length does not end it. -/
def exPqY' : List ((Act × OpIn) × Out) := [((.oneShot, exSIn exPqDigest [1] none), .err .signatureLenRange)]

instance (slh : Bool) (k : OpKind) (key : PqKey) (o : Obj) : Decidable (pqKeyIs slh k key o) := by unfold pqKeyIs; infer_instance

theorem exPq_use : PqUse exPqK exPqMem CKM_HASH_ML_DSA_SHA256 exPqQ false (.hashed .sha256) (exPqKey .sign) .ml44 (some (exPqMem [])) pqSumEnv pqSumCore where
  known := by decide
  sized := by decide
  given := rfl
  load := rfl
  parts := nofun
  ossl := pqSum_follows

theorem exPq_use' : PqUse exPqK exPqMem CKM_HASH_ML_DSA exPqQ' false .prehash (exPqKey .verify) .ml44 (some (exPqMem [])) pqSumEnv pqSumCore where
  known := by decide
  sized := by decide
  given := rfl
  load := rfl
  parts := nofun
  ossl := pqSum_follows

/-- The hypotheses can be met for CKM_ML_DSA as well. -/
example : PqUse exPqK exPqMem CKM_ML_DSA [] false .pure (exPqKey .sign) .ml44 none pqSumEnv pqSumCore where
  known := by decide
  sized := by decide
  given := rfl
  load := rfl
  parts := fun _ => rfl
  ossl := pqSum_follows

set_option maxRecDepth 20000 in
/-- `C91_signed` and `C91_gives` apply. -/
theorem exPq_signed : Went exPqM exCrypto exOracle [] exPqStart (exEnv 10) 1 7 .sign CKM_HASH_ML_DSA_SHA256 exPqQ 9 [] (pqKeyIs false .sign (exPqKey .sign)) exPqTr
    (exPqY ++ [((.final, exSIn [] [] (some 2420)), .bytes exPqSigned)]) where
  there := ⟨exEnv 0, .rwUser, CKF_RW_SESSION ||| CKF_SERIAL_SESSION, by decide +kernel⟩
  value := seen_read (o := exPqPriv) (by decide +kernel) (by decide +kernel)
  calm := fun _ => seen_read (o := exPqPriv) (by decide +kernel) (by decide +kernel)
  started := by decide +kernel
  quiet := by
    have : exPqTr.all (fun p => meddles 1 .sign p.2 == false) = true := by decide +kernel
    exact fun p hp => eq_of_beq (List.all_eq_true.1 this p hp)
  same := noOpen_of (by decide +kernel)
  still := ⟨7, exEnv 0, .rwUser, CKF_RW_SESSION ||| CKF_SERIAL_SESSION, by decide +kernel⟩
  exchange := by decide +kernel

example : (∃ w, toSign pqSumEnv.hash (.hashed .sha256) (some (exPqMem [])) [9, 9, 9, 4, 4] = some w ∧ pqSumCore.sign true w = some exPqSigned) ∧ exPqSigned.length = 2420 :=
  C91_signed exPq_use exPq_signed

set_option maxRecDepth 20000 in
/-- Later, on the other session: verification with CKM_HASH_ML_DSA and the digest.  `C91_verified`, `C91_verdict_partial` and `C91_roundtrip` apply. -/
theorem exPq_verified : Went exPqM exCrypto exOracle [] exPqStart' (exEnv 20) 2 7 .verify CKM_HASH_ML_DSA exPqQ' 10 [] (pqKeyIs false .verify (exPqKey .verify)) exPqTr'
    (exPqY' ++ [((.oneShot, exSIn exPqDigest exPqSigned none), .ok)]) where
  there := ⟨exEnv 0, .rwUser, CKF_RW_SESSION ||| CKF_SERIAL_SESSION, by decide +kernel⟩
  value := seen_read (o := exPqPub) (by decide +kernel) (by decide +kernel)
  calm := nofun
  started := by decide +kernel
  quiet := by
    have : exPqTr'.all (fun p => meddles 2 .verify p.2 == false) = true := by decide +kernel
    exact fun p hp => eq_of_beq (List.all_eq_true.1 this p hp)
  same := noOpen_of (by decide +kernel)
  still := ⟨7, exEnv 0, .rwUser, CKF_RW_SESSION ||| CKF_SERIAL_SESSION, by decide +kernel⟩
  exchange := by decide +kernel

theorem exPq_comes : comesToEnd exPqY .final ∧ comesToEnd exPqY' .oneShot := by
  refine ⟨⟨?_, .inr ⟨rfl, _, List.mem_cons_self, rfl, rfl⟩⟩, ⟨?_, .inl ⟨rfl, ?_⟩⟩⟩
  · intro p hp
    simp only [exPqY, List.mem_cons, List.mem_nil_iff, or_false] at hp
    rcases hp with rfl | rfl | rfl | rfl <;> simp [goesOn]
  · intro p hp
    simp only [exPqY', List.mem_cons, List.mem_nil_iff, or_false] at hp
    subst hp; simp [goesOn]
  · rintro ⟨p, hp, hu⟩
    simp only [exPqY', List.mem_cons, List.mem_nil_iff, or_false] at hp
    subst hp; cases hu

/-- The M' of the case. -/
def exPqW : Bytes := [1, 2, 5, 6, 6, 9, 96, 134, 72, 1, 101, 3, 4, 2, 1] ++ exPqDigest

set_option maxRecDepth 20000 in
example : Out.ok = .ok :=
  C91_roundtrip (A := pqSumCore) (Y := exPqY) (Y' := exPqY') (b := exSIn [] [] (some 2420)) (x := exPqSigned) (w := exPqW)
    (b' := exSIn exPqDigest exPqSigned none) (sig' := []) (fun u x s h => by unfold pqSumCore at h ⊢; simp only at h ⊢; split at h <;> simp_all)
    exPq_use exPq_use' exPq_signed (.inl rfl) exPq_verified exPq_comes.2 (by decide +kernel) (by decide +kernel) (if_pos rfl)

set_option maxRecDepth 20000 in
example : Out.bytes exPqSigned = .bytes exPqSigned :=
  C91_gives (w := exPqW) exPq_use exPq_signed exPq_comes.1 rfl (by decide) (by decide +kernel) (by decide +kernel)

/-- CKM_HASH_ML_DSA: a part, then the digest. -/
def exPqTrW : Trace :=
  [(exEnv 21, .op 2 (.opRun .verify .update (exSIn exPqDigest [] none))), (exEnv 22, .op 2 (.opRun .verify .oneShot (exSIn exPqDigest exPqSigned none)))]

/-- The part. -/
def exPqYW : List ((Act × OpIn) × Out) := [((.update, exSIn exPqDigest [] none), .err .operationNotInitialized)]

set_option maxRecDepth 20000 in
/-- `C91_whole` applies. -/
theorem exPq_whole : Went exPqM exCrypto exOracle [] exPqStart' (exEnv 20) 2 7 .verify CKM_HASH_ML_DSA exPqQ' 10 [] (pqKeyIs false .verify (exPqKey .verify)) exPqTrW
    (exPqYW ++ [((.oneShot, exSIn exPqDigest exPqSigned none), .err .operationNotInitialized)]) where
  there := ⟨exEnv 0, .rwUser, CKF_RW_SESSION ||| CKF_SERIAL_SESSION, by decide +kernel⟩
  value := seen_read (o := exPqPub) (by decide +kernel) (by decide +kernel)
  calm := nofun
  started := by decide +kernel
  quiet := by
    have : exPqTrW.all (fun p => meddles 2 .verify p.2 == false) = true := by decide +kernel
    exact fun p hp => eq_of_beq (List.all_eq_true.1 this p hp)
  same := noOpen_of (by decide +kernel)
  still := ⟨7, exEnv 0, .rwUser, CKF_RW_SESSION ||| CKF_SERIAL_SESSION, by decide +kernel⟩
  exchange := by decide +kernel

example : Out.err .operationNotInitialized ≠ .ok :=
  (C91_whole (.inl rfl) exPq_use' (.inr (.inl rfl)) exPq_whole (.inl ⟨_, List.mem_cons_self, rfl⟩)).1

/-- Another digest. -/
def exPqDigest' : Bytes := [9, 9, 9, 4, 5] ++ List.replicate 27 0

/-- A signature of another message. -/
def exPqTrV : Trace := [(exEnv 21, .op 2 (.opRun .verify .oneShot (exSIn exPqDigest' exPqSigned none)))]

set_option maxRecDepth 20000 in
/-- **C91**: a signature that the algorithm does not accept is answered with CKR_DEVICE_ERROR, not with CKR_SIGNATURE_INVALID (`src/error.rs:275-284`): an application cannot tell a forged
signature from a failing token. -/
theorem C91_invalid_violation : (toSign pqSumEnv.hash .prehash (some (exPqMem [])) exPqDigest').map (pqSumCore.ver · exPqSigned) = some false ∧
    Went exPqM exCrypto exOracle [] exPqStart' (exEnv 20) 2 7 .verify CKM_HASH_ML_DSA exPqQ' 10 [] (pqKeyIs false .verify (exPqKey .verify)) exPqTrV
      [((.oneShot, exSIn exPqDigest' exPqSigned none), .err .deviceError)] where
  left := by decide +kernel
  right := {
    there := ⟨exEnv 0, .rwUser, CKF_RW_SESSION ||| CKF_SERIAL_SESSION, by decide +kernel⟩
    value := seen_read (o := exPqPub) (by decide +kernel) (by decide +kernel)
    calm := nofun
    started := by decide +kernel
    quiet := by
      have : exPqTrV.all (fun p => meddles 2 .verify p.2 == false) = true := by decide +kernel
      exact fun p hp => eq_of_beq (List.all_eq_true.1 this p hp)
    same := noOpen_of (by decide +kernel)
    still := ⟨7, exEnv 0, .rwUser, CKF_RW_SESSION ||| CKF_SERIAL_SESSION, by decide +kernel⟩
    exchange := by decide +kernel }

end Kry
