import Verif.Model.EdCalls
import Verif.Props.C80
import Verif.Props.C87

/-!
# C88: EdDSA through the calls of a session

A signature that C_Sign or C_SignFinal gives out is that of RFC 8032, with the variant that curve and parameter ask for, over the data of C_Sign, or over the parts accepted; a verification
succeeds only for what the algorithm accepts; what was signed on one session verifies on any other.

* `C88_signed`: what is given out, for any earlier calls.  `C88_gives`: that it is given out.
* `C88_verified`: what is accepted.  `C88_verdict`: what is answered.
* `C88_roundtrip`: a signature made through one session is accepted through any other with the public key.
-/

namespace Kry
namespace Spec

/-- The message that a call is about: its own data, or the parts accepted. -/
def aboutMsg (Y : List ((Act × OpIn) × Out)) (a : Act) (b : OpIn) : Bytes := if a = .oneShot then b.data else partsOf Y

/-- A part was accepted. -/
def acceptedPart (Y : List ((Act × OpIn) × Out)) : Prop := ∃ p ∈ Y, p.1.1 = .update ∧ p.2 = .ok

/-- Answers after which an operation goes on. -/
def goesOn : Out → Prop
  | .size _ => True
  | .err r => r = .bufferTooSmall ∨ r = .signatureLenRange ∨ r = .operationNotInitialized ∨ r = .tokenResourceExceeded ∨ r = .functionNotSupported
  | _ => False

/-- No call but those for parts came to a result. -/
def notDone (Y : List ((Act × OpIn) × Out)) : Prop := ∀ p ∈ Y, p.1.1 = .update ∨ goesOn p.2

/-- No part, and no data that were too long. -/
def untouched (Y : List ((Act × OpIn) × Out)) : Prop := ∀ p ∈ Y, p.1.1 ≠ .update ∧ p.2 ≠ .err .tokenResourceExceeded

/-- The parameter: none, or what its bytes stand for. -/
def edParamGiven (mem : Bytes → EdParam) (q : Bytes) : Option EdParam := if q = [] then none else some (mem q)

/-- Key object `o` is made of `p` and `v`. -/
def edKeyIs (k : OpKind) (p v : Bytes) (o : Obj) : Prop :=
  o.getBytes CKA_EC_PARAMS = .ok p ∧ o.getBytes (if k = .sign then CKA_VALUE else CKA_EC_POINT) = .ok v

end Spec

open Spec

variable {M : Mechs} {C : Crypto} {O : Oracle} {K : EdKeys} {mem : Bytes → EdParam} {k : OpKind}

/-! ## An EdDSA operation as its user sees it -/

/-- It takes data, or it has ended. -/
inductive Signing where
  | taking (d : Option Bytes) (used : Bool)
  | ended

/-- The answer for a message. -/
def edSaid (k : OpKind) (sign : Bytes → Option Bytes) (ver : Bytes → Bytes → Bool) (given : Bytes) (d : Option Bytes) (b : OpIn) : Out :=
  if k = .sign then match d with
    | none => .err .generalError
    | some x => match sign x with
      | none => .err .deviceError
      | some s => .bytes s
  else match d with
    | none => .err .signatureInvalid
    | some x => if ver x (if k = .verify then b.sig else given) then .ok else .err .signatureInvalid

/-- A call. -/
def edTalk (k : OpKind) (len : Nat) (sign : Bytes → Option Bytes) (ver : Bytes → Bytes → Bool) (given : Bytes) (s : Signing) (a : Act) (b : OpIn) : Out × Signing :=
  if soloCall a then match s with
    | .ended => (.err .operationNotInitialized, .ended)
    | .taking d used =>
      if a = .update then
        if (d.getD [] ++ b.data).length ≤ 1024 * 1024 then (.ok, .taking (some (d.getD [] ++ b.data)) true) else (.err .tokenResourceExceeded, .taking d true)
      else match macGate k len b with
        | some r => (r, s)
        | none => if a = .oneShot then
            if used then (.err .operationNotInitialized, s)
            else if b.data.length ≤ 1024 * 1024 then (edSaid k sign ver given (some b.data) b, .ended) else (.err .tokenResourceExceeded, .taking d true)
          else if used then (edSaid k sign ver given d b, .ended) else (.err .operationNotInitialized, s)
  else (.err .functionNotSupported, s)

/-! ## The operation object -/

theorem packAlg_un (a : EdAlg) : unpackAlg (packAlg a) = a := by cases a <;> rfl

theorem packMode_un (a : SigMode) : unpackMode (packMode a) = a := by cases a <;> rfl

theorem edOf_op (key : EdKey) (o : EdOp) : edOf (edOp key o) = some (key, o) := by
  unfold edOf
  have : unpackL 14 (edOp key o).data = [packBool key.priv, key.params, key.value, packNat o.outLen, packAlg o.alg, packSig o.context, packBool o.sigctx.signs,
    packMode o.sigctx.mode, packBool o.sigctx.updates, packSig o.sigctx.data, packSig o.sigctx.signature, o.sigctx.fed, packSig o.sigctx.given, packBool o.inUse] :=
    unpackL_pack [packBool key.priv, key.params, key.value, packNat o.outLen, packAlg o.alg, packSig o.context, packBool o.sigctx.signs,
      packMode o.sigctx.mode, packBool o.sigctx.updates, packSig o.sigctx.data, packSig o.sigctx.signature, o.sigctx.fed, packSig o.sigctx.given, packBool o.inUse]
  rw [this]
  simp only [packSig_un, packBool_un, packNat_from, packAlg_un, packMode_un]
  rfl

/-- The operation with data fed, if any. -/
def edHas (o : EdOp) (d : Option Bytes) (u : Bool) : EdOp := { o with inUse := u, sigctx := { o.sigctx with data := d } }

/-- States of an operation object made as `o`. -/
def edIs (key : EdKey) (o : EdOp) : Signing → Op → Prop
  | .taking d u, v => v = edOp key (edHas o d u) ∧ (u = false → d = none)
  | .ended, v => ∃ o', v = edOp key o' ∧ o'.finalized = true

theorem run_ed {c : EdCurve} {E : EdEnv} {key : EdKey} (hl : K.load key.priv key.params key.value = some (c, E)) (e : Env) (a : Act) (i : OpIn) (o : EdOp) :
    runOp (withEd M K mem) e k a (edOp key o) i = ((edRun E k a o i).1, edOp key (edRun E k a o i).2) := by
  unfold runOp withEd
  simp only [show (edOp key o).mech = CKM_EDDSA from rfl, if_true]
  unfold edDo
  simp only [edOf_op, hl]
  rfl

section
variable {E : EdEnv} {A : EdCore} {c : EdCurve} {param : Option EdParam} {sig : Option Bytes} {o : EdOp} {signs : Bool}

theorem has_update (h : EdMade signs c param sig o) (d : Option Bytes) (u : Bool) (p : Bytes) :
    (edHas o d u).update p = if (d.getD [] ++ p).length ≤ 1024 * 1024 then (.ok (), edHas o (some (d.getD [] ++ p)) true) else (.error .tokenResourceExceeded, edHas o d true) := by
  unfold EdOp.update
  simp only [edHas, h.final, Bool.false_eq_true, if_false, OsslSig.update, h.updates, Bool.not_false, if_true, OsslSig.store]
  cases d with
  | none =>
    simp only [Option.getD_none, List.nil_append]
    by_cases hp : p.length ≤ 1024 * 1024
    · rw [if_neg (by unfold osslMaxBuffer; omega), if_pos hp]
    · rw [if_pos (by unfold osslMaxBuffer; omega), if_neg hp]
  | some d =>
    simp only [Option.getD_some, List.length_append]
    by_cases hp : d.length + p.length ≤ 1024 * 1024
    · rw [if_neg (by unfold osslMaxBuffer; omega), if_pos hp]
    · rw [if_pos (by unfold osslMaxBuffer; omega), if_neg hp]

theorem has_sign (F : EdFollows E A (edSize c)) (h : EdMade true c param sig o) (d : Option Bytes) :
    ((edHas o d true).signFinal E o.outLen).1 = (match d with
      | none => .error .generalError
      | some x => match A.sign o.alg (o.context.getD []) x with
        | none => .error .deviceError
        | some s => .ok s) ∧ ((edHas o d true).signFinal E o.outLen).2.finalized = true := by
  unfold EdOp.signFinal
  simp only [edHas, h.final, Bool.not_true, Bool.false_eq_true, if_false, OsslSig.signFinal, h.hsigns, h.updates, Bool.not_false, if_true]
  cases d with
  | none => exact ⟨rfl, rfl⟩
  | some x =>
    simp only [OsslSig.sign, h.hsigns, Bool.not_true, Bool.false_eq_true, if_false, h.len, F.announced, Nat.lt_irrefl, F.sign]
    cases hc : A.sign o.alg (o.context.getD []) x with
    | none => exact ⟨rfl, rfl⟩
    | some s =>
      have := F.size _ _ _ _ hc
      simp [this]

theorem has_verify (F : EdFollows E A (edSize c)) (h : EdMade false c param sig o) (d : Option Bytes) (given : Option Bytes) (s : Bytes) (hg : edClaimed given sig = some s) :
    ((edHas o d true).verifyFinal E given).1 = (match d with
      | none => .error .signatureInvalid
      | some x => if A.ver o.alg (o.context.getD []) x s then .ok () else .error .signatureInvalid) ∧ ((edHas o d true).verifyFinal E given).2.finalized = true := by
  cases d with
  | none =>
    unfold EdOp.verifyFinal
    simp only [edHas, h.final, Bool.not_true, Bool.false_eq_true, if_false, OsslSig.verifyFinal, h.hsigns, h.updates, Bool.not_false, if_true]
    exact ⟨trivial, trivial⟩
  | some x =>
    refine ⟨ed_verifyFinal F h x s hg, ?_⟩
    unfold EdOp.verifyFinal
    simp only [edHas, h.final, Bool.not_true, Bool.false_eq_true, if_false]
    generalize OsslSig.verifyFinal _ _ _ = z
    obtain ⟨r, c'⟩ := z
    cases r <;> rfl

end

/-- A signature operation that takes data: what a call does. -/
theorem solo_sig {v : Op} {n : Nat} (hk : k = .sign ∨ k = .verify ∨ k = .verifySig) (hf : v.fin = false) (hn : ∀ a l, (lenOp M k a v l).1 = .ok n) (e : Env) (a : Act) (b : OpIn) :
    solo M e k a b v = if soloCall a then
        if a = .update then soloFeed (M := M) e k b.data v
        else match macGate k n b with
          | some r => (r, v)
          | none => (macSaid k (runOp M (e.sub 0) k a v b).1, (runOp M (e.sub 0) k a v b).2)
      else (.err .functionNotSupported, v) := by
  unfold solo
  by_cases hc : soloCall a
  case neg => rw [if_neg hc, if_neg hc]
  rw [if_pos hc, if_pos hc, hf]
  simp only [Bool.false_eq_true, if_false]
  have hcr : ¬ (k = .enc ∨ k = .dec) := by rcases hk with h | h | h <;> subst h <;> decide
  have hdg : k ≠ .digest := by rcases hk with h | h | h <;> subst h <;> decide
  by_cases hu : a = .update
  · subst hu
    unfold soloLive
    rw [if_neg hcr, if_pos rfl]
  rw [if_neg hu]
  have hst : a = .oneShot ∨ a = .final := by
    rcases hc with h | h | h
    · exact .inl h
    · exact absurd h hu
    · exact .inr h
  have hlive : soloLive M e k a b v = if k = .sign then soloGive (M := M) (e.sub 0) k a b v else soloCheck (M := M) e k a b v := by
    rcases hst with h | h <;> subst h <;> (unfold soloLive; simp only [if_neg hcr, if_neg hdg])
  rw [hlive]
  by_cases hs : k = .sign
  · rw [if_pos hs]
    unfold soloGive macGate
    rw [hn, if_pos hs]
    simp only
    cases b.out with
    | none => rfl
    | some room =>
      simp only
      by_cases hr : room < n
      · rw [if_pos hr, if_pos hr]
      · rw [if_neg hr, if_neg hr]
        simp only
        unfold macSaid Out.ofBytes
        cases (runOp M (e.sub 0) k a v b).1 with
        | error r => rfl
        | ok x => simp only [if_pos hs]
  · rw [if_neg hs]
    have hw : (match (runOp M (e.sub 0) k a v b).1 with
        | .error r => Out.err r
        | .ok _ => .ok) = macSaid k (runOp M (e.sub 0) k a v b).1 := by
      unfold macSaid
      cases (runOp M (e.sub 0) k a v b).1 with
      | error r => rfl
      | ok x => simp only [if_neg hs]
    unfold soloCheck macGate
    rw [if_neg hs]
    by_cases hv : k = .verify
    · rw [if_pos hv, if_pos hv, hn]
      simp only
      by_cases hl : n ≠ b.sig.length
      · rw [if_pos hl, if_pos hl]
      · rw [if_neg hl, if_neg hl]
        simp only
        exact Prod.ext hw rfl
    · rw [if_neg hv, if_neg hv]
      simp only
      exact Prod.ext hw rfl

section
variable {E : EdEnv} {A : EdCore} {c : EdCurve} {param : Option EdParam} {sig : Bytes} {o : EdOp} {key : EdKey}

theorem ended_verify {z : Res Unit × EdOp} {w : Bytes → Bytes → Bool} {d : Option Bytes} {b : OpIn} (hs : k ≠ .sign)
    (h1 : z.1 = match d with
      | none => .error .signatureInvalid
      | some x => if w x (if k = .verify then b.sig else sig) then .ok () else .error .signatureInvalid) (h2 : z.2.finalized = true) {g : Bytes → Option Bytes} :
    macSaid k (edNothing z).1 = edSaid k g w sig d b ∧ (edNothing z).2.finalized = true := by
  obtain ⟨r, o'⟩ := z
  unfold edSaid
  rw [if_neg hs]
  simp only at h1
  subst h1
  cases d with
  | none => exact ⟨rfl, h2⟩
  | some x =>
    simp only
    by_cases hw : w x (if k = .verify then b.sig else sig) = true
    · rw [if_pos hw, if_pos hw]
      refine ⟨?_, h2⟩
      unfold edNothing macSaid
      simp only [if_neg hs]
    · rw [if_neg hw, if_neg hw]
      exact ⟨rfl, h2⟩

/-- The end of an operation. -/
theorem ed_end (F : EdFollows E A (edSize c)) (hk : k = .sign ∨ k = .verify ∨ k = .verifySig) (h : EdMade (decide (k = .sign)) c param (givenFor k sig) o) (d : Option Bytes) (b : OpIn) :
    macSaid k (edRun E k .final (edHas o d true) b).1 = edSaid k (A.sign o.alg (o.context.getD [])) (A.ver o.alg (o.context.getD [])) sig d b ∧
    (edRun E k .final (edHas o d true) b).2.finalized = true := by
  rcases hk with hk | hk | hk <;> subst hk
  · obtain ⟨h1, h2⟩ := has_sign F h d
    refine ⟨?_, h2⟩
    show macSaid .sign ((edHas o d true).signFinal E o.outLen).1 = _
    rw [h1]
    unfold edSaid
    rw [if_pos rfl]
    cases d with
    | none => rfl
    | some x =>
      simp only
      cases A.sign o.alg (o.context.getD []) x <;> rfl
  · obtain ⟨h1, h2⟩ := has_verify F h d (some b.sig) b.sig rfl
    exact ended_verify (k := .verify) nofun h1 h2
  · obtain ⟨h1, h2⟩ := has_verify F h d none sig rfl
    exact ended_verify (k := .verifySig) (b := b) nofun h1 h2

theorem ed_solo (F : EdFollows E A (edSize c)) (hl : K.load key.priv key.params key.value = some (c, E)) (hk : k = .sign ∨ k = .verify ∨ k = .verifySig)
    (h : EdMade (decide (k = .sign)) c param (givenFor k sig) o) (e : Env) (a : Act) (b : OpIn) (s : Signing) (v : Op) (hR : edIs key o s v) :
    (solo (withEd M K mem) e k a b v).1 = (edTalk k (edSize c) (A.sign o.alg (o.context.getD [])) (A.ver o.alg (o.context.getD [])) sig s a b).1 ∧
    edIs key o (edTalk k (edSize c) (A.sign o.alg (o.context.getD [])) (A.ver o.alg (o.context.getD [])) sig s a b).2 (solo (withEd M K mem) e k a b v).2 := by
  cases s with
  | ended =>
    obtain ⟨o', rfl, hf⟩ := hR
    unfold solo edTalk
    by_cases hc : soloCall a
    · rw [if_pos hc, if_pos hc, if_pos (show (edOp key o').fin = true from hf)]
      exact ⟨rfl, o', rfl, hf⟩
    · rw [if_neg hc, if_neg hc]
      exact ⟨rfl, o', rfl, hf⟩
  | taking d u =>
    obtain ⟨rfl, hu⟩ := hR
    have hlen : ∀ a l, (lenOp (withEd M K mem) k a (edOp key (edHas o d u)) l).1 = .ok (edSize c) := by
      intro a l
      unfold lenOp withEd
      simp only [show (edOp key (edHas o d u)).mech = CKM_EDDSA from rfl, if_true]
      unfold edLen
      rw [edOf_op]
      show Except.ok o.outLen = _
      rw [h.len]
    rw [solo_sig hk (show (edHas o d u).finalized = false from h.final) hlen]
    unfold edTalk
    by_cases hc : soloCall a
    case neg => rw [if_neg hc, if_neg hc]; exact ⟨rfl, rfl, hu⟩
    rw [if_pos hc, if_pos hc]
    simp only
    by_cases ha : a = .update
    · rw [if_pos ha, if_pos ha]
      unfold soloFeed
      rw [run_ed hl]
      show (match (edNothing ((edHas o d u).update b.data)).1 with
        | .error r => Out.err r
        | .ok _ => .ok) = _ ∧ edIs key o _ (edOp key (edNothing ((edHas o d u).update b.data)).2)
      rw [has_update h]
      by_cases hp : (d.getD [] ++ b.data).length ≤ 1024 * 1024
      · rw [if_pos hp, if_pos hp]; exact ⟨rfl, rfl, nofun⟩
      · rw [if_neg hp, if_neg hp]; exact ⟨rfl, rfl, nofun⟩
    rw [if_neg ha, if_neg ha]
    cases macGate k (edSize c) b with
    | some r => exact ⟨rfl, rfl, hu⟩
    | none =>
      simp only
      rw [run_ed hl]
      by_cases h1 : a = .oneShot
      · subst h1
        rw [if_pos rfl]
        cases u with
        | true =>
          simp only [if_true]
          have hrun : edRun E k .oneShot (edHas o d true) b = (.error .operationNotInitialized, edHas o d true) := by
            rcases hk with hk | hk | hk <;> subst hk <;> rfl
          rw [hrun]
          exact ⟨rfl, rfl, nofun⟩
        | false =>
          have := hu rfl; subst this
          simp only [Bool.false_eq_true, if_false]
          have hrun : edRun E k .oneShot (edHas o none false) b = if b.data.length ≤ 1024 * 1024 then edRun E k .final (edHas o (some b.data) true) b
              else (.error .tokenResourceExceeded, edHas o none true) := by
            have hup := has_update h none false b.data
            simp only [Option.getD_none, List.nil_append] at hup
            have hf : (edHas o none false).finalized = false := h.final
            have hiu : (edHas o none false).inUse = false := rfl
            by_cases hp : b.data.length ≤ 1024 * 1024
            · rw [if_pos hp] at hup ⊢
              rcases hk with hk | hk | hk <;> subst hk <;> unfold edRun <;> simp only [EdOp.sign, EdOp.verify, hiu, hf, hup, Bool.false_eq_true, if_false] <;> rfl
            · rw [if_neg hp] at hup ⊢
              rcases hk with hk | hk | hk <;> subst hk <;> unfold edRun <;> simp only [EdOp.sign, EdOp.verify, hiu, hf, hup, Bool.false_eq_true, if_false] <;> rfl
          rw [hrun]
          by_cases hp : b.data.length ≤ 1024 * 1024
          · rw [if_pos hp, if_pos hp]
            obtain ⟨g1, g2⟩ := ed_end F hk h (some b.data) b
            exact ⟨g1, _, rfl, g2⟩
          · rw [if_neg hp, if_neg hp]
            exact ⟨rfl, rfl, nofun⟩
      · rw [if_neg h1]
        have h2 : a = .final := by
          rcases hc with h | h | h
          · exact absurd h h1
          · exact absurd h ha
          · exact h
        subst h2
        cases u with
        | true =>
          simp only [if_true]
          obtain ⟨g1, g2⟩ := ed_end F hk h d b
          exact ⟨g1, _, rfl, g2⟩
        | false =>
          simp only [Bool.false_eq_true, if_false]
          have hrun : edRun E k .final (edHas o d false) b = (.error .operationNotInitialized, edHas o d false) := by
            rcases hk with hk | hk | hk <;> subst hk <;> rfl
          rw [hrun]
          exact ⟨rfl, rfl, hu⟩

end

/-! ## In the machine -/

theorem withEd_stateless : Stateless (withEd M K mem) CKM_EDDSA where
  new := by
    intro e k q key sig op h
    unfold withEd at h
    simp only [if_true] at h
    split at h
    · unfold edStart at h
      repeat' split at h
      all_goals first | (cases h; done) | skip
      all_goals (injection h with h; subst h; rfl)
    · cases h
  run := by
    intro e k a op i hop hu
    show (if op.mech = CKM_EDDSA then _ else _ : Res Bytes × Op).2.upd = none
    rw [if_pos hop]
    unfold edDo
    repeat' split
    all_goals first | exact hu | rfl
  len := by
    intro k a op n hop hu
    show (if op.mech = CKM_EDDSA then _ else _ : Res Nat × Op).2.upd = none
    rw [if_pos hop]
    exact hu

/-- A successful start. -/
theorem ed_started {e : Env} {q sig p v : Bytes} {x : Obj} {op : Op} {c : EdCurve} {E : EdEnv} (hv : edKeyIs k p v x) (hl : K.load (decide (k = .sign)) p v = some (c, E))
    (h : newOp (withEd M K mem) e k CKM_EDDSA q (some x) sig = .ok op) :
    ∃ o, EdOp.new E K.mode (decide (k = .sign)) c (edParamGiven mem q) (givenFor k sig) = .ok o ∧ op = edOp ⟨decide (k = .sign), p, v⟩ o := by
  unfold newOp at h
  simp only at h
  split at h
  · cases h
  · cases hn : (withEd M K mem).new e k CKM_EDDSA q (some x) sig with
    | error r => rw [hn] at h; cases h
    | ok o' =>
      rw [hn] at h
      injection h with h
      unfold withEd at hn
      simp only [if_true] at hn
      unfold edStart edKey at hn
      rw [hv.1] at hn
      simp only at hn
      have hv2 : x.getBytes (if decide (k = .sign) = true then CKA_VALUE else CKA_EC_POINT) = .ok v := by
        have := hv.2
        by_cases hs : k = .sign
        · simpa [hs] using this
        · simpa [hs] using this
      rw [hv2] at hn
      simp only [hl] at hn
      cases hq : edParamOf mem q with
      | error r => rw [hq] at hn; cases hn
      | ok pp =>
        rw [hq] at hn
        simp only at hn
        have hpp : pp = edParamGiven mem q := by
          unfold edParamOf at hq
          unfold edParamGiven
          by_cases h0 : q.length = 0
          · rw [if_pos h0] at hq
            injection hq with hq
            rw [if_pos (List.length_eq_zero_iff.1 h0)]; exact hq.symm
          · rw [if_neg h0] at hq
            rw [if_neg (fun y => h0 (by rw [y]; rfl))]
            split at hq
            · cases hq
            · injection hq with hq; exact hq.symm
        subst hpp
        cases ho : EdOp.new E K.mode (decide (k = .sign)) c (edParamGiven mem q) (if k = .verifySig then some sig else none) with
        | error r => rw [ho] at hn; cases hn
        | ok o =>
          rw [ho] at hn
          injection hn with hn
          refine ⟨o, ho, ?_⟩
          rw [← h, ← hn]
          have hf := (ed_made ho).final
          unfold edOp
          rw [hf]

variable {d : List (Nat × Db)} {tr tr2 : Trace} {e : Env} {h i key : Nat} {q sig p v : Bytes} {Y X : List ((Act × OpIn) × Out)} {b : OpIn} {r : Out} {a : Act}
variable {A : EdCore} {c : EdCurve} {E : EdEnv}

/-- What the user of CKM_EDDSA sees. -/
theorem C88_talk (hk : k = .sign ∨ k = .verify ∨ k = .verifySig) (hl : K.load (decide (k = .sign)) p v = some (c, E)) (F : EdFollows E A (edSize c))
    (hX : Went (withEd M K mem) C O d tr e h i k CKM_EDDSA q key sig (edKeyIs k p v) tr2 X) :
    ∃ alg ctx, edVariant c (edParamGiven mem q) = some (alg, ctx) ∧
      X.map (·.2) = (describe (edTalk k (edSize c) (A.sign alg ctx) (A.ver alg ctx) sig) (.taking none false) (X.map (·.1))).1 := by
  have hmm : manyMessages k = false := by rcases hk with h | h | h <;> subst h <;> rfl
  have hd : k ≠ .digest := by rcases hk with h | h | h <;> subst h <;> decide
  obtain ⟨x, op, hx, hn⟩ := went_new withEd_stateless hd hX
  obtain ⟨o, ho, -⟩ := ed_started hx hl hn
  have hmade := ed_made ho
  refine ⟨o.alg, o.context.getD [], hmade.variant, ?_⟩
  refine went_sim (R := edIs ⟨decide (k = .sign), p, v⟩ o) withEd_stateless hmm hd hX ?_ (ed_solo F hl hk hmade) ?_
  · intro s w hw
    cases s with
    | taking d u => obtain ⟨rfl, -⟩ := hw; exact ⟨rfl, rfl⟩
    | ended => obtain ⟨o', rfl, -⟩ := hw; exact ⟨rfl, rfl⟩
  · intro x' op' hx' hn'
    obtain ⟨o2, ho2, rfl⟩ := ed_started hx' hl hn'
    rw [ho] at ho2
    injection ho2 with ho2
    subst ho2
    refine ⟨?_, fun _ => rfl⟩
    unfold edHas
    rw [← hmade.use, ← hmade.data]

/-! ## What is given out and what is accepted -/

section
variable {len : Nat} {sign : Bytes → Option Bytes} {ver : Bytes → Bytes → Bool} {given : Bytes}

theorem said_on {d : Option Bytes} {b : OpIn} : ¬ goesOn (edSaid k sign ver given d b) := by
  unfold edSaid
  repeat' split
  all_goals (unfold goesOn; first | exact fun h => h | (intro h; simp at h))

theorem gate_on {b : OpIn} {r : Out} (h : macGate k len b = some r) : goesOn r := by
  unfold macGate at h
  repeat' split at h
  all_goals first | (cases h; done) | (injection h with h; subst h; simp [goesOn])

/-- One call. -/
theorem edTalk_step (d : Option Bytes) (u : Bool) (a : Act) (b : OpIn) :
    (∃ d' u', (edTalk k len sign ver given (.taking d u) a b).2 = .taking d' u' ∧
      (a ≠ .update → goesOn (edTalk k len sign ver given (.taking d u) a b).1) ∧
      (a = .update ∧ (edTalk k len sign ver given (.taking d u) a b).1 = .ok → d' = some (d.getD [] ++ b.data)) ∧
      (¬ (a = .update ∧ (edTalk k len sign ver given (.taking d u) a b).1 = .ok) → d' = d) ∧
      (u' = true → u = true ∨ a = .update ∨ (edTalk k len sign ver given (.taking d u) a b).1 = .err .tokenResourceExceeded) ∧
      ((u = true ∨ a = .update) → u' = true)) ∨
    ((edTalk k len sign ver given (.taking d u) a b).2 = .ended ∧ a ≠ .update ∧ ¬ goesOn (edTalk k len sign ver given (.taking d u) a b).1) := by
  unfold edTalk
  by_cases hc : soloCall a
  case neg =>
    have hu : a ≠ .update := fun h => hc (h ▸ .inr (.inl rfl))
    rw [if_neg hc]
    exact .inl ⟨d, u, rfl, fun _ => by simp [goesOn], fun h => absurd h.1 hu, fun _ => rfl, fun h => .inl h, fun h => h.elim id (absurd · hu)⟩
  rw [if_pos hc]
  simp only
  by_cases hu : a = .update
  · rw [if_pos hu]
    left
    by_cases hp : (d.getD [] ++ b.data).length ≤ 1024 * 1024
    · rw [if_pos hp]
      exact ⟨_, _, rfl, fun h => absurd hu h, fun _ => rfl, fun h => absurd ⟨hu, rfl⟩ h, fun _ => .inr (.inl hu), fun _ => rfl⟩
    · rw [if_neg hp]
      exact ⟨_, _, rfl, fun h => absurd hu h, fun h => (by cases h.2), fun _ => rfl, fun _ => .inr (.inl hu), fun _ => rfl⟩
  · rw [if_neg hu]
    cases hg : macGate k len b with
    | some r => exact .inl ⟨d, u, rfl, fun _ => gate_on hg, fun h => absurd h.1 hu, fun _ => rfl, fun h => .inl h, fun h => h.elim id (absurd · hu)⟩
    | none =>
      simp only
      by_cases h1 : a = .oneShot
      · rw [if_pos h1]
        by_cases h2 : u = true
        · rw [if_pos h2]
          exact .inl ⟨d, u, rfl, fun _ => by simp [goesOn], fun h => absurd h.1 hu, fun _ => rfl, fun h => .inl h, fun h => h.elim id (absurd · hu)⟩
        · rw [if_neg h2]
          by_cases hp : b.data.length ≤ 1024 * 1024
          · rw [if_pos hp]
            refine .inr ⟨rfl, hu, ?_⟩
            show ¬ goesOn (edSaid k sign ver given (some b.data) b)
            exact said_on
          · rw [if_neg hp]
            exact .inl ⟨d, true, rfl, fun _ => by simp [goesOn], fun h => absurd h.1 hu, fun _ => rfl, fun _ => .inr (.inr rfl), fun _ => rfl⟩
      · rw [if_neg h1]
        by_cases h2 : u = true
        · rw [if_pos h2]
          refine .inr ⟨rfl, hu, ?_⟩
          show ¬ goesOn (edSaid k sign ver given d b)
          exact said_on
        · rw [if_neg h2]
          exact .inl ⟨d, u, rfl, fun _ => by simp [goesOn], fun h => absurd h.1 hu, fun _ => rfl, fun h => .inl h, fun h => h.elim id (absurd · hu)⟩

theorem edTalk_ended (l : List (Act × OpIn)) : (describe (edTalk k len sign ver given) .ended l).2 = .ended := by
  induction l with
  | nil => rfl
  | cons x l ih =>
    obtain ⟨a, b⟩ := x
    have : (edTalk k len sign ver given .ended a b).2 = .ended := by
      unfold edTalk
      split <;> rfl
    show (describe _ (edTalk k len sign ver given .ended a b).2 l).2 = _
    rw [this]; exact ih

theorem partsOf_cons (x : (Act × OpIn) × Out) (Y : List ((Act × OpIn) × Out)) :
    partsOf (x :: Y) = (if x.1.1 = .update ∧ x.2 = .ok then x.1.2.data else []) ++ partsOf Y := rfl

/-- All calls. -/
theorem edTalk_run (Y : List ((Act × OpIn) × Out)) (d : Option Bytes) (u : Bool)
    (hY : Y.map (·.2) = (describe (edTalk k len sign ver given) (.taking d u) (Y.map (·.1))).1) :
    (∃ d' u', (describe (edTalk k len sign ver given) (.taking d u) (Y.map (·.1))).2 = .taking d' u' ∧
      (∀ x, d' = some x → x = d.getD [] ++ partsOf Y) ∧ ((d.isSome ∨ acceptedPart Y) → d'.isSome) ∧ (u = false → untouched Y → u' = false) ∧ ((u = true ∨ somePart Y) → u' = true)) ∨
    ((describe (edTalk k len sign ver given) (.taking d u) (Y.map (·.1))).2 = .ended ∧ ¬ notDone Y) := by
  induction Y generalizing d u with
  | nil =>
    refine .inl ⟨d, u, rfl, fun x hx => by rw [hx]; simp [partsOf], fun h => h.elim id (fun ⟨p, hp, _⟩ => absurd hp List.not_mem_nil), fun h _ => h,
      fun h => h.elim id (fun ⟨p, hp, _⟩ => absurd hp List.not_mem_nil)⟩
  | cons p Y ih =>
    obtain ⟨⟨a, b⟩, r⟩ := p
    change r :: Y.map (·.2) = (edTalk k len sign ver given (.taking d u) a b).1 ::
      (describe (edTalk k len sign ver given) (edTalk k len sign ver given (.taking d u) a b).2 (Y.map (·.1))).1 at hY
    injection hY with hr hY
    show (∃ d' u', (describe _ (edTalk k len sign ver given (.taking d u) a b).2 (Y.map (·.1))).2 = .taking d' u' ∧ _) ∨
      (describe _ (edTalk k len sign ver given (.taking d u) a b).2 (Y.map (·.1))).2 = _ ∧ _
    rcases edTalk_step (k := k) (len := len) (sign := sign) (ver := ver) (given := given) d u a b with ⟨d1, u1, h1, h2, h3, h4, h5, h6⟩ | ⟨h1, h2, h3⟩
    · rw [← hr] at h2 h3 h4 h5
      rw [h1] at hY ⊢
      rcases ih _ _ hY with ⟨d2, u2, g1, g2, g3, g4, g5⟩ | ⟨h, hn⟩
      · refine .inl ⟨d2, u2, g1, ?_, ?_, ?_, ?_⟩
        · intro x hx
          rw [g2 x hx, partsOf_cons]
          by_cases hc : a = .update ∧ r = .ok
          · rw [h3 hc, if_pos hc]; simp
          · rw [h4 hc, if_neg hc]; simp
        · intro hs
          apply g3
          by_cases hc : a = .update ∧ r = .ok
          · left; rw [h3 hc]; rfl
          · rw [h4 hc]
            rcases hs with hs | ⟨p, hp, hp2⟩
            · exact .inl hs
            · rcases List.mem_cons.1 hp with rfl | hp
              · exact absurd hp2 hc
              · exact .inr ⟨p, hp, hp2⟩
        · intro hu ht
          have t0 := ht _ List.mem_cons_self
          refine g4 ?_ fun p hp => ht p (List.mem_cons_of_mem _ hp)
          cases hu1 : u1 with
          | false => rfl
          | true =>
            rcases h5 hu1 with h | h | h
            · rw [hu] at h; cases h
            · exact absurd h t0.1
            · exact absurd h t0.2
        · intro hs
          apply g5
          rcases hs with hs | ⟨p, hp, hp2⟩
          · exact .inl (h6 (.inl hs))
          · rcases List.mem_cons.1 hp with rfl | hp
            · exact .inl (h6 (.inr hp2))
            · exact .inr ⟨p, hp, hp2⟩
      · exact .inr ⟨h, fun hu => hn fun p hp => hu p (List.mem_cons_of_mem _ hp)⟩
    · right
      rw [h1]
      refine ⟨edTalk_ended _, fun hu => ?_⟩
      rw [← hr] at h3
      rcases hu _ List.mem_cons_self with h | h
      · exact h2 h
      · exact h3 h

/-- A call that comes to a result. -/
theorem edTalk_result {s : Signing} {a : Act} {b : OpIn} (h : ¬ goesOn (edTalk k len sign ver given s a b).1) (hu : a ≠ .update) :
    ∃ d u, s = .taking d u ∧ ((a = .oneShot ∧ (edTalk k len sign ver given s a b).1 = edSaid k sign ver given (some b.data) b) ∨
      (a = .final ∧ (edTalk k len sign ver given s a b).1 = edSaid k sign ver given d b)) := by
  unfold edTalk at h ⊢
  by_cases hc : soloCall a
  case neg => rw [if_neg hc] at h; exact absurd (by simp [goesOn]) h
  rw [if_pos hc] at h ⊢
  cases s with
  | ended => exact absurd (by simp [goesOn]) h
  | taking d u =>
    refine ⟨d, u, rfl, ?_⟩
    simp only at h ⊢
    rw [if_neg hu] at h ⊢
    cases hg : macGate k len b with
    | some r => rw [hg] at h; exact absurd (gate_on hg) h
    | none =>
      rw [hg] at h
      simp only at h ⊢
      by_cases h1 : a = .oneShot
      · rw [if_pos h1] at h ⊢
        left
        refine ⟨h1, ?_⟩
        by_cases h2 : u = true
        · rw [if_pos h2] at h; exact absurd (by simp [goesOn]) h
        · rw [if_neg h2] at h ⊢
          by_cases hp : b.data.length ≤ 1024 * 1024
          · rw [if_pos hp]
          · rw [if_neg hp] at h; exact absurd (by simp [goesOn]) h
      · rw [if_neg h1] at h ⊢
        right
        have h2 : a = .final := by
          rcases hc with h | h | h
          · exact absurd h h1
          · exact absurd h hu
          · exact h
        refine ⟨h2, ?_⟩
        by_cases h2 : u = true
        · rw [if_pos h2]
        · rw [if_neg h2] at h; exact absurd (by simp [goesOn]) h

end

/-- The last call of an exchange, in the state that the earlier ones left. -/
theorem ed_last (hk : k = .sign ∨ k = .verify ∨ k = .verifySig) (hl : K.load (decide (k = .sign)) p v = some (c, E)) (F : EdFollows E A (edSize c))
    (hX : Went (withEd M K mem) C O d tr e h i k CKM_EDDSA q key sig (edKeyIs k p v) tr2 (Y ++ [((a, b), r)])) :
    ∃ alg ctx s, edVariant c (edParamGiven mem q) = some (alg, ctx) ∧ r = (edTalk k (edSize c) (A.sign alg ctx) (A.ver alg ctx) sig s a b).1 ∧
      ((∃ d' u', s = .taking d' u' ∧ (∀ x, d' = some x → x = partsOf Y) ∧ (acceptedPart Y → d'.isSome) ∧ (untouched Y → u' = false) ∧ (somePart Y → u' = true)) ∨
        (s = .ended ∧ ¬ notDone Y)) := by
  obtain ⟨alg, ctx, hv, hx⟩ := C88_talk hk hl F hX
  obtain ⟨y1, y2⟩ := describe_last hx
  refine ⟨alg, ctx, _, hv, y2, ?_⟩
  rcases edTalk_run Y none false y1 with ⟨d', u', h1, h2, h3, h4, h5⟩ | h1
  · exact .inl ⟨d', u', h1, h2, fun z => h3 (.inr z), h4 rfl, fun z => h5 (.inr z)⟩
  · exact .inr h1

theorem update_answer {len : Nat} {sign : Bytes → Option Bytes} {ver : Bytes → Bytes → Bool} {given : Bytes} {s : Signing} {b : OpIn} {x : Bytes} :
    (edTalk k len sign ver given s .update b).1 ≠ .bytes x := by
  unfold edTalk
  cases s with
  | ended => nofun
  | taking d u =>
    simp only [if_true]
    repeat' split
    all_goals nofun

/-- The message of a result. -/
theorem ed_message {alg : EdAlg} {ctx : Bytes} {s : Signing} (hr : r = (edTalk k (edSize c) (A.sign alg ctx) (A.ver alg ctx) sig s a b).1) (hu : a ≠ .update) (hg : ¬ goesOn r)
    (hs : (∃ d' u', s = .taking d' u' ∧ (∀ x, d' = some x → x = partsOf Y) ∧ (acceptedPart Y → d'.isSome) ∧ (untouched Y → u' = false) ∧ (somePart Y → u' = true)) ∨
        (s = .ended ∧ ¬ notDone Y)) : r = edSaid k (A.sign alg ctx) (A.ver alg ctx) sig (some (aboutMsg Y a b)) b ∨ r = edSaid k (A.sign alg ctx) (A.ver alg ctx) sig none b := by
  rw [hr] at hg
  obtain ⟨d', u', rfl, h⟩ := edTalk_result hg hu
  rw [← hr] at h
  rcases h with ⟨rfl, h⟩ | ⟨rfl, h⟩
  · exact .inl h
  · rcases hs with ⟨d2, u2, h1, h2, -⟩ | ⟨h1, -⟩
    · injection h1 with h1 _; subst h1
      cases d' with
      | none => exact .inr h
      | some x => left; rw [h, h2 x rfl]; rfl
    · cases h1

/-- **C88**: what C_Sign and C_SignFinal give out is the signature of the data, or of the parts accepted, by the variant that curve and parameter ask for. -/
theorem C88_signed {x : Bytes} (hl : K.load true p v = some (c, E)) (F : EdFollows E A (edSize c))
    (hX : Went (withEd M K mem) C O d tr e h i .sign CKM_EDDSA q key sig (edKeyIs .sign p v) tr2 (Y ++ [((a, b), .bytes x)])) :
    ∃ alg ctx, edVariant c (edParamGiven mem q) = some (alg, ctx) ∧ A.sign alg ctx (aboutMsg Y a b) = some x := by
  obtain ⟨alg, ctx, s, h1, h2, h3⟩ := ed_last (.inl rfl) hl F hX
  refine ⟨alg, ctx, h1, ?_⟩
  have hu : a ≠ .update := by rintro rfl; exact update_answer h2.symm
  rcases ed_message h2 hu (fun z => z) h3 with h | h
  · unfold edSaid at h
    rw [if_pos rfl] at h
    simp only at h
    cases hs : A.sign alg ctx (aboutMsg Y a b) with
    | none => rw [hs] at h; cases h
    | some y => rw [hs] at h; injection h with h; rw [h]
  · cases h

/-- **C88**: what a verification accepts, the algorithm accepts: the signature of the call, or that of C_VerifySignatureInit, for the data, or for the parts accepted. -/
theorem C88_verified (hk : k = .verify ∨ k = .verifySig) (hu : a ≠ .update) (hl : K.load false p v = some (c, E)) (F : EdFollows E A (edSize c))
    (hX : Went (withEd M K mem) C O d tr e h i k CKM_EDDSA q key sig (edKeyIs k p v) tr2 (Y ++ [((a, b), .ok)])) :
    ∃ alg ctx, edVariant c (edParamGiven mem q) = some (alg, ctx) ∧ A.ver alg ctx (aboutMsg Y a b) (if k = .verify then b.sig else sig) = true := by
  have hs : k ≠ .sign := by rcases hk with h | h <;> subst h <;> decide
  obtain ⟨alg, ctx, s, h1, h2, h3⟩ := ed_last (.inr hk) (by rw [decide_eq_false hs]; exact hl) F hX
  refine ⟨alg, ctx, h1, ?_⟩
  rcases ed_message h2 hu (fun z => z) h3 with h | h
  · unfold edSaid at h
    rw [if_neg hs] at h
    simp only at h
    cases hv : A.ver alg ctx (aboutMsg Y a b) (if k = .verify then b.sig else sig) with
    | true => rfl
    | false => rw [hv] at h; cases h
  · unfold edSaid at h
    rw [if_neg hs] at h
    cases h

/-- A call that has to come to a result: all data in one call of at most 1 MiB, or the end after a part. -/
def Spec.mustEnd (Y : List ((Act × OpIn) × Out)) (a : Act) (b : OpIn) : Prop :=
  notDone Y ∧ ((a = .oneShot ∧ untouched Y ∧ b.data.length ≤ 1024 * 1024) ∨ (a = .final ∧ acceptedPart Y))

theorem ed_must {alg : EdAlg} {ctx : Bytes} {s : Signing} (hr : r = (edTalk k (edSize c) (A.sign alg ctx) (A.ver alg ctx) sig s a b).1) (ha : mustEnd Y a b)
    (hg : macGate k (edSize c) b = none)
    (hs : (∃ d' u', s = .taking d' u' ∧ (∀ x, d' = some x → x = partsOf Y) ∧ (acceptedPart Y → d'.isSome) ∧ (untouched Y → u' = false) ∧ (somePart Y → u' = true)) ∨
        (s = .ended ∧ ¬ notDone Y)) : r = edSaid k (A.sign alg ctx) (A.ver alg ctx) sig (some (aboutMsg Y a b)) b := by
  obtain ⟨hY, ha⟩ := ha
  rcases hs with ⟨d', u', rfl, g1, g2, g3, g4⟩ | ⟨-, h⟩
  case inr => exact absurd hY h
  unfold edTalk at hr
  rcases ha with ⟨rfl, h1, h2⟩ | ⟨rfl, h1⟩
  · rw [if_pos (by decide)] at hr
    simp only at hr
    rw [if_neg (by decide), hg] at hr
    simp only [if_true] at hr
    rw [g3 h1] at hr
    simp only [Bool.false_eq_true, if_false] at hr
    rw [if_pos h2] at hr
    exact hr
  · rw [if_pos (by decide)] at hr
    simp only at hr
    rw [if_neg (by decide), hg] at hr
    simp only at hr
    have hp : somePart Y := by obtain ⟨p, hp, h, -⟩ := h1; exact ⟨p, hp, h⟩
    rw [if_neg (by decide), g4 hp] at hr
    simp only [if_true] at hr
    have := g2 h1
    cases d' with
    | none => cases this
    | some x => rw [hr, g1 x rfl]; rfl

/-- **C88**: a signature that the algorithm makes is given out, if the buffer is large enough. -/
theorem C88_gives {alg : EdAlg} {ctx : Bytes} {room : Nat} {x : Bytes} (hl : K.load true p v = some (c, E)) (F : EdFollows E A (edSize c))
    (hX : Went (withEd M K mem) C O d tr e h i .sign CKM_EDDSA q key sig (edKeyIs .sign p v) tr2 (Y ++ [((a, b), r)])) (ha : mustEnd Y a b) (hb : b.out = some room) (hr : edSize c ≤ room)
    (hv : edVariant c (edParamGiven mem q) = some (alg, ctx)) (hx : A.sign alg ctx (aboutMsg Y a b) = some x) : r = .bytes x := by
  obtain ⟨alg', ctx', s, h1, h2, h3⟩ := ed_last (.inl rfl) hl F hX
  rw [hv] at h1
  injection h1 with h1
  injection h1 with h1 h4
  subst h1; subst h4
  rw [ed_must h2 ha ?_ h3]
  · unfold edSaid
    rw [if_pos rfl]
    simp only
    rw [hx]
  · unfold macGate
    rw [if_pos rfl, hb]
    simp only
    rw [if_neg (by omega)]

/-- **C88**: a verification answers what the algorithm answers. -/
theorem C88_verdict {alg : EdAlg} {ctx : Bytes} (hk : k = .verify ∨ k = .verifySig) (hl : K.load false p v = some (c, E)) (F : EdFollows E A (edSize c))
    (hX : Went (withEd M K mem) C O d tr e h i k CKM_EDDSA q key sig (edKeyIs k p v) tr2 (Y ++ [((a, b), r)])) (ha : mustEnd Y a b) (hb : k = .verify → b.sig.length = edSize c)
    (hv : edVariant c (edParamGiven mem q) = some (alg, ctx)) :
    r = if A.ver alg ctx (aboutMsg Y a b) (if k = .verify then b.sig else sig) then .ok else .err .signatureInvalid := by
  have hs : k ≠ .sign := by rcases hk with h | h <;> subst h <;> decide
  obtain ⟨alg', ctx', s, h1, h2, h3⟩ := ed_last (.inr hk) (by rw [decide_eq_false hs]; exact hl) F hX
  rw [hv] at h1
  injection h1 with h1
  injection h1 with h1 h4
  subst h1; subst h4
  rw [ed_must h2 ha ?_ h3]
  · unfold edSaid
    rw [if_neg hs]
  · unfold macGate
    rw [if_neg hs]
    split
    · rename_i hv; rw [hb hv]; simp
    · rfl

/-- **C88**: a signature made with the private key through one session is accepted with the public key through any other, of this or another token, however the message is cut. -/
theorem C88_roundtrip {C' : Crypto} {O' : Oracle} {M' : Mechs} {d' : List (Nat × Db)} {tr' tr2' : Trace} {e' : Env} {h' i' key' : Nat} {sig' p' v' x : Bytes} {Y' : List ((Act × OpIn) × Out)}
    {a' : Act} {b' : OpIn} {E' : EdEnv} (law : ∀ a ctx m s, A.sign a ctx m = some s → A.ver a ctx m s = true)
    (hl : K.load true p v = some (c, E)) (F : EdFollows E A (edSize c)) (hl' : K.load false p' v' = some (c, E')) (F' : EdFollows E' A (edSize c))
    (hX : Went (withEd M K mem) C O d tr e h i .sign CKM_EDDSA q key sig (edKeyIs .sign p v) tr2 (Y ++ [((a, b), .bytes x)])) (hk : k = .verify ∨ k = .verifySig)
    (hX' : Went (withEd M' K mem) C' O' d' tr' e' h' i' k CKM_EDDSA q key' sig' (edKeyIs k p' v') tr2' (Y' ++ [((a', b'), r)])) (ha : mustEnd Y' a' b')
    (hm : aboutMsg Y' a' b' = aboutMsg Y a b) (hs : (if k = .verify then b'.sig else sig') = x) : r = .ok := by
  obtain ⟨alg, ctx, h1, h2⟩ := C88_signed hl F hX
  rw [C88_verdict hk hl' F' hX' ha ?_ h1, hm, hs, law _ _ _ _ h2, if_pos rfl]
  intro hv
  rw [if_pos hv] at hs
  rw [hs]
  exact F.size _ _ _ _ h2

/-! ## A case -/

/-- Every key is an Ed25519 key of the toy algorithm. -/
def exEdK : EdKeys := ⟨fun _ _ _ => some (.ed25519, edToyEnv 64), .legacy⟩

abbrev exEdM : Mechs := withEd exMechs exEdK fun q => ⟨1, q.take 2⟩

/-- The parameter: Ed25519ph with the context [1, 2]. -/
def exEdQ : Bytes := [1, 2] ++ List.replicate 22 0

/-- A private key (8), a public key (9) and two sessions. -/
def exEdStart : Trace :=
  [(exEnv 0, .initialize [(7, ⟨[CKM_EDDSA, CKM_AES_ECB], none, none⟩)]), (exEnv 1, .initToken 7 exSoPin none),
   (exEnv 2, .openSession 7 (CKF_RW_SESSION ||| CKF_SERIAL_SESSION)),
   (exEnv 3, .login 1 CKU_SO exSoPin), (exEnv 4, .sess 1 (.initPin exPin)), (exEnv 5, .logout 1), (exEnv 6, .login 1 CKU_USER exPin),
   (exEnv 7, .sess 1 (.createObject [.ofUlong CKA_CLASS CKO_PRIVATE_KEY, .ofUlong CKA_KEY_TYPE CKK_EC_EDWARDS,
     .mk' CKA_EC_PARAMS [6, 3, 0x2b, 0x65, 0x70], .mk' CKA_VALUE (List.replicate 32 5), .ofBool CKA_SIGN true])),
   (exEnv 8, .sess 1 (.createObject [.ofUlong CKA_CLASS CKO_PUBLIC_KEY, .ofUlong CKA_KEY_TYPE CKK_EC_EDWARDS,
     .mk' CKA_EC_PARAMS [6, 3, 0x2b, 0x65, 0x70], .mk' CKA_EC_POINT (List.replicate 32 6), .ofBool CKA_VERIFY true])),
   (exEnv 9, .openSession 7 (CKF_RW_SESSION ||| CKF_SERIAL_SESSION))]

abbrev exEdSt : St := after exEdM exCrypto exOracle [] exEdStart
def exEdPriv : Obj := (readAt exCrypto exEdSt 7 8).getD (Obj.new 0)

/-- Signature of 5 bytes in two parts, with a signature on the other session, a query and a short buffer in between. -/
def exEdTr : Trace :=
  [(exEnv 11, .op 1 (.opRun .sign .update (exSIn [9, 9, 9] [] none))),
   (exEnv 12, .op 2 (.opInit .sign (some (CKM_EDDSA, [])) 8 [])),
   (exEnv 13, .op 2 (.opRun .sign .update (exSIn [5, 5] [] none))),
   (exEnv 14, .op 1 (.opRun .sign .final (exSIn [] [] none))),
   (exEnv 15, .op 1 (.opRun .sign .final (exSIn [] [] (some 63)))),
   (exEnv 16, .op 1 (.opRun .sign .oneShot (exSIn [1] [] (some 64)))),
   (exEnv 17, .op 1 (.opRun .sign .update (exSIn [4, 4] [] none))),
   (exEnv 18, .op 1 (.opRun .sign .final (exSIn [] [] (some 64))))]

/-- The exchange before C_SignFinal. -/
def exEdY : List ((Act × OpIn) × Out) :=
  [((.update, exSIn [9, 9, 9] [] none), .ok), ((.final, exSIn [] [] none), .size 64), ((.final, exSIn [] [] (some 63)), .err .bufferTooSmall),
   ((.oneShot, exSIn [1] [] (some 64)), .err .operationNotInitialized), ((.update, exSIn [4, 4] [] none), .ok)]

/-- The signature. -/
def exEdSig : Bytes := [1, 2, 9, 9, 9, 4, 4] ++ List.replicate 57 0

set_option maxRecDepth 20000 in
/-- `C88_signed` and `C88_gives` apply. -/
theorem exEd_signed : Went exEdM exCrypto exOracle [] exEdStart (exEnv 10) 1 7 .sign CKM_EDDSA exEdQ 8 [] (edKeyIs .sign [6, 3, 0x2b, 0x65, 0x70] (List.replicate 32 5)) exEdTr
    (exEdY ++ [((.final, exSIn [] [] (some 64)), .bytes exEdSig)]) where
  there := ⟨exEnv 0, .rwUser, CKF_RW_SESSION ||| CKF_SERIAL_SESSION, by decide +kernel⟩
  value := seen_read (o := exEdPriv) (by decide +kernel) ⟨by decide +kernel, by decide +kernel⟩
  calm := fun _ => seen_read (o := exEdPriv) (by decide +kernel) (by decide +kernel)
  started := by decide +kernel
  quiet := by
    have : exEdTr.all (fun p => meddles 1 .sign p.2 == false) = true := by decide +kernel
    exact fun p hp => eq_of_beq (List.all_eq_true.1 this p hp)
  same := noOpen_of (by decide +kernel)
  still := ⟨7, exEnv 0, .rwUser, CKF_RW_SESSION ||| CKF_SERIAL_SESSION, by decide +kernel⟩
  exchange := by decide +kernel

example : ∃ alg ctx, edVariant .ed25519 (edParamGiven (fun q => ⟨1, q.take 2⟩) exEdQ) = some (alg, ctx) ∧ (edToyCore 64).sign alg ctx [9, 9, 9, 4, 4] = some exEdSig :=
  C88_signed (A := edToyCore 64) rfl (edToy_follows 64) exEd_signed

/-- Later, on the other session: verification in one call. -/
def exEdTr' : Trace :=
  [(exEnv 21, .op 2 (.opRun .verify .oneShot (exSIn [9, 9, 9, 4, 4] [1] none))), (exEnv 22, .sess 2 (.findInit [])),
   (exEnv 23, .op 2 (.opRun .verify .oneShot (exSIn [9, 9, 9, 4, 4] exEdSig none)))]

abbrev exEdStart' : Trace := exEdStart ++ (exEnv 10, .op 1 (.opInit .sign (some (CKM_EDDSA, exEdQ)) 8 [])) :: exEdTr
abbrev exEdSt' : St := after exEdM exCrypto exOracle [] exEdStart'
def exEdPub : Obj := (readAt exCrypto exEdSt' 7 9).getD (Obj.new 0)

/-- A signature of a wrong length does not end it. -/
def exEdY' : List ((Act × OpIn) × Out) := [((.oneShot, exSIn [9, 9, 9, 4, 4] [1] none), .err .signatureLenRange)]

set_option maxRecDepth 20000 in
/-- `C88_verified`, `C88_verdict` and `C88_roundtrip` apply. -/
theorem exEd_verified : Went exEdM exCrypto exOracle [] exEdStart' (exEnv 20) 2 7 .verify CKM_EDDSA exEdQ 9 [] (edKeyIs .verify [6, 3, 0x2b, 0x65, 0x70] (List.replicate 32 6)) exEdTr'
    (exEdY' ++ [((.oneShot, exSIn [9, 9, 9, 4, 4] exEdSig none), .ok)]) where
  there := ⟨exEnv 0, .rwUser, CKF_RW_SESSION ||| CKF_SERIAL_SESSION, by decide +kernel⟩
  value := seen_read (o := exEdPub) (by decide +kernel) ⟨by decide +kernel, by decide +kernel⟩
  calm := nofun
  started := by decide +kernel
  quiet := by
    have : exEdTr'.all (fun p => meddles 2 .verify p.2 == false) = true := by decide +kernel
    exact fun p hp => eq_of_beq (List.all_eq_true.1 this p hp)
  same := noOpen_of (by decide +kernel)
  still := ⟨7, exEnv 0, .rwUser, CKF_RW_SESSION ||| CKF_SERIAL_SESSION, by decide +kernel⟩
  exchange := by decide +kernel

theorem exEd_must : mustEnd exEdY .final (exSIn [] [] (some 64)) ∧ mustEnd exEdY' .oneShot (exSIn [9, 9, 9, 4, 4] exEdSig none) := by
  refine ⟨⟨?_, .inr ⟨rfl, _, List.mem_cons_self, rfl, rfl⟩⟩, ⟨?_, .inl ⟨rfl, ?_, by decide⟩⟩⟩
  · intro p hp
    simp only [exEdY, List.mem_cons, List.mem_nil_iff, or_false] at hp
    rcases hp with rfl | rfl | rfl | rfl | rfl <;> simp [goesOn]
  · intro p hp
    simp only [exEdY', List.mem_cons, List.mem_nil_iff, or_false] at hp
    subst hp; simp [goesOn]
  · intro p hp
    simp only [exEdY', List.mem_cons, List.mem_nil_iff, or_false] at hp
    subst hp; exact ⟨nofun, nofun⟩

example : Out.ok = .ok :=
  C88_roundtrip (A := edToyCore 64) (fun _ _ _ _ h => by simp only [edToyCore, Option.some.injEq] at h ⊢; rw [← h]; simp) rfl (edToy_follows 64) rfl (edToy_follows 64)
    exEd_signed (.inl rfl) exEd_verified exEd_must.2 rfl rfl

end Kry
