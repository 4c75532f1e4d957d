import Verif.Model.AesSign
import Verif.Proofs.Exchange
import Verif.Props.C56

/-!
# C87: AES-MAC and CMAC through the calls of a session

A MAC that C_Sign or C_SignFinal gives out is that of the data of C_Sign, or of the parts that were accepted, in order, with the value of the key object, whatever else was called in
between; a verification succeeds exactly for this MAC.

* `C87_sign`, `C87_sign_oneshot`: what is given out, for any earlier calls.  `C87_gives`: that it is given out.
* `C87_verify`, `C87_verify_oneshot`: what C_VerifyFinal and C_Verify accept.  `C87_given`, `C87_given_oneshot`: C_VerifySignature.
* `C87_accepts`: the right signature is accepted and any other refused.
* `C87_zero_violation`: a length of 0 is taken; then the empty signature is right for every message.
-/

namespace Kry
namespace Spec

/-- Length of the MAC. -/
def sigSize (m : Nat) (q : Bytes) : Nat := if m = CKM_AES_MAC then 8 else if m = CKM_AES_CMAC then 16 else fromLE q

/-- The MAC of a message with the key `v`. -/
def sigFor (L : Bytes → AesLib) (K : CmacLib) (m : Nat) (q v : Bytes) (msg : Bytes) : Bytes :=
  if m = CKM_AES_MAC ∨ m = CKM_AES_MAC_GENERAL then cbcMac (L v).enc (sigSize m q) msg else (K.mac v msg).take (sigSize m q)

/-- The parts that were accepted. -/
def partsOf (Y : List ((Act × OpIn) × Out)) : Bytes :=
  Y.flatMap fun p => if p.1.1 = .update ∧ p.2 = .ok then p.1.2.data else []

/-- No call has given out a MAC or a verdict. -/
def undecided (Y : List ((Act × OpIn) × Out)) : Prop :=
  ∀ p ∈ Y, p.1.1 = .update ∨ (p.2 ≠ .ok ∧ p.2 ≠ .err .signatureInvalid ∧ ∀ b, p.2 ≠ .bytes b)

/-- There was a part. -/
def somePart (Y : List ((Act × OpIn) × Out)) : Prop := ∃ p ∈ Y, p.1.1 = .update

/-- The four mechanisms. -/
def aesMacMech (m : Nat) : Prop := m = CKM_AES_MAC ∨ m = CKM_AES_MAC_GENERAL ∨ m = CKM_AES_CMAC ∨ m = CKM_AES_CMAC_GENERAL

end Spec

open Spec

variable {M : Mechs} {C : Crypto} {O : Oracle} {L : Bytes → AesLib} {K : CmacLib} {k : OpKind} {m : Nat}

/-! ## A MAC operation as its user sees it -/

/-- It takes data, or it has ended. -/
inductive Macking where
  | taking (d : Bytes) (used : Bool)
  | ended

/-- Answers before any work. -/
def macGate (k : OpKind) (len : Nat) (b : OpIn) : Option Out :=
  if k = .sign then match b.out with
    | none => some (.size len)
    | some room => if room < len then some (.err .bufferTooSmall) else none
  else if k = .verify then if len ≠ b.sig.length then some (.err .signatureLenRange) else none
  else none

/-- The result. -/
def macResult (k : OpKind) (given : Bytes) (mac : Bytes) (b : OpIn) : Res Bytes :=
  if k = .sign then .ok mac
  else if mac = (if k = .verify then b.sig else given) then .ok [] else .error .signatureInvalid

/-- Its answer. -/
def macSaid (k : OpKind) (r : Res Bytes) : Out :=
  match r with
  | .error r => .err r
  | .ok x => if k = .sign then .bytes x else .ok

/-- The message of a call that ends the operation. -/
def macMsg (free : Bool) (d : Bytes) (used : Bool) (a : Act) (b : OpIn) : Option Bytes :=
  if a = .oneShot then if used then none else some b.data else if used ∨ free then some d else none

/-- A call. -/
def macTalk (k : OpKind) (len : Nat) (mac : Bytes → Bytes) (free : Bool) (given : Bytes) (s : Macking) (a : Act) (b : OpIn) : Out × Macking :=
  if soloCall a then match s with
    | .ended => (.err .operationNotInitialized, .ended)
    | .taking d used =>
      if a = .update then (.ok, .taking (d ++ b.data) true)
      else match macGate k len b with
        | some r => (r, s)
        | none => match macMsg free d used a b with
          | none => (.err .operationNotInitialized, s)
          | some x => (macSaid k (macResult k given (mac x) b), .ended)
  else (.err .functionNotSupported, s)

/-- Operation objects that behave so. -/
structure Behaves (M : Mechs) (m : Nat) (k : OpKind) (len : Nat) (mac : Bytes → Bytes) (free : Bool) (given : Bytes) (R : Macking → Op → Prop) : Prop where
  plain : ∀ s v, R s v → Plainly m v
  live : ∀ d u v, R (.taking d u) v → v.fin = false
  dead : ∀ v, R .ended v → v.fin = true
  len : ∀ d u v a n, R (.taking d u) v → (lenOp M k a v n).1 = .ok len
  upd : ∀ d u v e i, R (.taking d u) v → (runOp M e k .update v i).1 = .ok [] ∧ R (.taking (d ++ i.data) true) (runOp M e k .update v i).2
  stop : ∀ d u v e a i, a = .oneShot ∨ a = .final → R (.taking d u) v →
    match macMsg free d u a i with
    | none => (runOp M e k a v i).1 = .error .operationNotInitialized ∧ R (.taking d u) (runOp M e k a v i).2
    | some x => (runOp M e k a v i).1 = macResult k given (mac x) i ∧ R .ended (runOp M e k a v i).2

/-- What such objects answer. -/
theorem behaves_solo {len : Nat} {mac : Bytes → Bytes} {free : Bool} {given : Bytes} {R : Macking → Op → Prop} (hB : Behaves M m k len mac free given R)
    (hk : k = .sign ∨ k = .verify ∨ k = .verifySig) (e : Env) (a : Act) (b : OpIn) (s : Macking) (v : Op) (hR : R s v) :
    (solo M e k a b v).1 = (macTalk k len mac free given s a b).1 ∧ R (macTalk k len mac free given s a b).2 (solo M e k a b v).2 := by
  unfold solo macTalk
  by_cases hc : soloCall a
  case neg => rw [if_neg hc, if_neg hc]; exact ⟨rfl, hR⟩
  rw [if_pos hc, if_pos hc]
  cases s with
  | ended => rw [if_pos (hB.dead v hR)]; exact ⟨rfl, hR⟩
  | taking d u =>
    rw [if_neg (by rw [hB.live d u v hR]; exact Bool.false_ne_true)]
    have hcr : ¬ (k = .enc ∨ k = .dec) := by rcases hk with h | h | h <;> subst h <;> decide
    have hdg : k ≠ .digest := by rcases hk with h | h | h <;> subst h <;> decide
    by_cases hu : a = .update
    · subst hu
      unfold soloLive
      rw [if_neg hcr]
      obtain ⟨u1, u2⟩ := hB.upd d u v e { (default : OpIn) with data := b.data } hR
      unfold soloFeed
      rw [u1]
      exact ⟨rfl, u2⟩
    · have hst : a = .oneShot ∨ a = .final := by
        rcases hc with h | h | h
        · exact .inl h
        · exact absurd h hu
        · exact .inr h
      have hlive : soloLive M e k a b v = if k = .sign then soloGive (M := M) (e.sub 0) k a b v else soloCheck (M := M) e k a b v := by
        rcases hst with h | h <;> subst h <;> (unfold soloLive; simp only [if_neg hcr, if_neg hdg])
      rw [hlive]
      simp only [if_neg hu]
      have hstop := hB.stop d u v (e.sub 0) a b hst hR
      have hlen := hB.len d u v a b.data.length hR
      by_cases hsg : k = .sign
      · rw [if_pos hsg]
        unfold soloGive macGate
        rw [hlen, if_pos hsg]
        simp only
        cases b.out with
        | none => exact ⟨rfl, hR⟩
        | some room =>
          by_cases hr : room < len
          · simp only [if_pos hr]; exact ⟨trivial, hR⟩
          · simp only [if_neg hr]
            cases hm : macMsg free d u a b with
            | none => rw [hm] at hstop; rw [hstop.1]; exact ⟨rfl, hstop.2⟩
            | some x =>
              rw [hm] at hstop
              rw [hstop.1]
              refine ⟨?_, hstop.2⟩
              simp only
              unfold macSaid macResult
              rw [if_pos hsg]
              simp only [if_pos hsg]
              rfl
      · rw [if_neg hsg]
        have work : (match (runOp M (e.sub 0) k a v b).1 with
            | .error r => Out.err r
            | .ok _ => .ok) = (match macMsg free d u a b with
              | none => (Out.err .operationNotInitialized, Macking.taking d u)
              | some x => (macSaid k (macResult k given (mac x) b), Macking.ended)).1 ∧
            R (match macMsg free d u a b with
              | none => (Out.err .operationNotInitialized, Macking.taking d u)
              | some x => (macSaid k (macResult k given (mac x) b), Macking.ended)).2 (runOp M (e.sub 0) k a v b).2 := by
          cases hm : macMsg free d u a b with
          | none => rw [hm] at hstop; rw [hstop.1]; exact ⟨rfl, hstop.2⟩
          | some x =>
            rw [hm] at hstop
            rw [hstop.1]
            refine ⟨?_, hstop.2⟩
            unfold macSaid
            simp only [if_neg hsg]
        unfold soloCheck macGate
        rw [if_neg hsg, hlen]
        by_cases hv : k = .verify
        · rw [if_pos hv, if_pos hv]
          simp only
          by_cases hl : len ≠ b.sig.length
          · rw [if_pos hl, if_pos hl]; exact ⟨rfl, hR⟩
          · rw [if_neg hl, if_neg hl]; exact work
        · rw [if_neg hv, if_neg hv]; exact work

/-! ## CMAC -/

theorem packSig_un (s : Option Bytes) : unpackSig (packSig s) = s := by cases s <;> rfl

theorem cmacOf_op (m : Nat) (key : Bytes) (given : Option Bytes) (o : CmacOp) : cmacOf (cmacOp m key given o) = some (key, given, o) := by
  unfold cmacOf
  show (match unpackL [packSig given, key, packBool o.inUse, packNat o.maclen, o.fed].length (packL [packSig given, key, packBool o.inUse, packNat o.maclen, o.fed]) with
    | [sg, key, iu, ml, fed] => some (key, unpackSig sg, (⟨o.finalized, iu != [], fromLE ml, fed⟩ : CmacOp))
    | _ => none) = _
  rw [unpackL_pack]
  simp only [packSig_un, packBool_un, packNat_from]

theorem aesMacOf_op (m : Nat) (key : Bytes) (given : Option Bytes) (o : AesMacOp) : aesMacOf (aesMacOp m key given o) = some (key, given, o) := by
  unfold aesMacOf
  have : unpackL 25 (aesMacOp m key given o).data =
      packSig given :: packBool o.inUse :: o.pad :: o.macbuf :: packNat o.maclen :: packBool o.op.finalized :: o.op.fields key := by
    show unpackL (packSig given :: packBool o.inUse :: o.pad :: o.macbuf :: packNat o.maclen :: packBool o.op.finalized :: o.op.fields key).length
      (packL (packSig given :: packBool o.inUse :: o.pad :: o.macbuf :: packNat o.maclen :: packBool o.op.finalized :: o.op.fields key)) = _
    exact unpackL_pack _
  rw [this]
  have hr : AesOp.read o.op.finalized (o.op.fields key) = some (key, o.op) := by
    unfold AesOp.fields AesOp.read
    simp only [packMech_un, packBool_un, packNat_from]
  simp only [packSig_un, packBool_un, packNat_from, hr]
  rfl

/-- The signature given at the start. -/
def givenFor (k : OpKind) (sig : Bytes) : Option Bytes := if k = .verifySig then some sig else none

theorem macEnd_result {α : Type} (hk : k = .sign ∨ k = .verify ∨ k = .verifySig) (sig c : Bytes) (i : OpIn) (o : α) :
    macEnd k (givenFor k sig) i (.ok c, o) = (macResult k sig c i, o) := by
  rcases hk with h | h | h <;> subst h
  · rfl
  · show (verdict (some i.sig) c, o) = (if c = i.sig then .ok [] else .error .signatureInvalid, o)
    unfold verdict
    by_cases h : c = i.sig
    · simp [h]
    · simp [h]
  · show (verdict (some sig) c, o) = (if c = sig then .ok [] else .error .signatureInvalid, o)
    unfold verdict
    by_cases h : c = sig
    · simp [h]
    · simp [h]

/-- States of a CMAC operation object. -/
def cmacIs (m : Nat) (key : Bytes) (given : Option Bytes) (len : Nat) : Macking → Op → Prop
  | .taking d u, v => v = cmacOp m key given ⟨false, u, len, d⟩ ∧ (u = false → d = [])
  | .ended, v => ∃ o, v = cmacOp m key given o ∧ o.finalized = true

theorem run_cmac {s : AesSig} (hm : aesSig m = some s) (hc : s.cmac = true) (e : Env) (a : Act) (i : OpIn) (key : Bytes) (given : Option Bytes) (o : CmacOp) :
    runOp (withAesMac M L K) e k a (cmacOp m key given o) i = ((cmacRun K key k a given o i).1, cmacOp m key given (cmacRun K key k a given o i).2) := by
  unfold runOp withAesMac
  simp only [show (cmacOp m key given o).mech = m from rfl, hm]
  unfold aesSigDo
  simp only [if_pos hc, cmacOf_op]
  rfl

theorem run_aesMac {s : AesSig} (hm : aesSig m = some s) (hc : s.cmac = false) (e : Env) (a : Act) (i : OpIn) (key : Bytes) (given : Option Bytes) (o : AesMacOp) :
    runOp (withAesMac M L K) e k a (aesMacOp m key given o) i = ((aesMacRun (L key) k a given o i).1, aesMacOp m key given (aesMacRun (L key) k a given o i).2) := by
  unfold runOp withAesMac
  simp only [show (aesMacOp m key given o).mech = m from rfl, hm]
  unfold aesSigDo
  simp only [hc, Bool.false_eq_true, if_false, aesMacOf_op]
  rfl

theorem cmacEnded (key : Bytes) (hk : k = .sign ∨ k = .verify ∨ k = .verifySig) (sig : Bytes) (i : OpIn) (o : CmacOp) (hf : o.finalized = false) :
    macEnd k (givenFor k sig) i (o.finalize K key) = (macResult k sig ((K.mac key o.fed).take o.maclen) i, { o with inUse := true, finalized := true }) := by
  unfold CmacOp.finalize
  rw [hf]
  simp only [Bool.false_eq_true, if_false]
  rw [if_neg (by simp [K.mac_len]), macEnd_result hk]

theorem cmac_behaves {s : AesSig} (hm : aesSig m = some s) (hc : s.cmac = true) (hk : k = .sign ∨ k = .verify ∨ k = .verifySig) (key sig : Bytes) (len : Nat) :
    Behaves (withAesMac M L K) m k len (fun d => (K.mac key d).take len) true sig (cmacIs m key (givenFor k sig) len) where
  plain := by
    intro s v h
    cases s with
    | taking d u => obtain ⟨rfl, -⟩ := h; exact ⟨rfl, rfl⟩
    | ended => obtain ⟨o, rfl, -⟩ := h; exact ⟨rfl, rfl⟩
  live := by rintro d u v ⟨rfl, -⟩; rfl
  dead := by rintro v ⟨o, rfl, h⟩; exact h
  len := by
    rintro d u v a n ⟨rfl, -⟩
    unfold lenOp withAesMac
    show (match aesSig m with
      | some s => (aesSigLen s (cmacOp m key (givenFor k sig) ⟨false, u, len, d⟩), cmacOp m key (givenFor k sig) ⟨false, u, len, d⟩)
      | none => M.len k a (cmacOp m key (givenFor k sig) ⟨false, u, len, d⟩) n : Res Nat × Op).1 = _
    rw [hm]
    unfold aesSigLen
    simp only [if_pos hc, cmacOf_op]
  upd := by
    rintro d u v e i ⟨rfl, -⟩
    rw [run_cmac hm hc]
    exact ⟨rfl, rfl, nofun⟩
  stop := by
    rintro d u v e a i ha ⟨rfl, hu⟩
    rw [run_cmac hm hc]
    rcases ha with rfl | rfl
    · unfold macMsg
      rw [if_pos rfl]
      cases u with
      | true => exact ⟨rfl, rfl, nofun⟩
      | false =>
        have := hu rfl; subst this
        simp only [Bool.false_eq_true, if_false]
        have hrun : cmacRun K key k .oneShot (givenFor k sig) ⟨false, false, len, []⟩ i =
            (macResult k sig ((K.mac key i.data).take len) i, ⟨true, true, len, i.data⟩) := by
          unfold cmacRun CmacOp.start
          simp only [Bool.false_eq_true, if_false]
          by_cases hd : 0 < i.data.length
          · rw [if_pos hd]
            exact cmacEnded key hk sig i ⟨false, true, len, i.data⟩ rfl
          · rw [if_neg hd]
            have e0 : i.data = [] := List.length_eq_zero_iff.1 (by omega)
            rw [e0]
            exact cmacEnded key hk sig i ⟨false, false, len, []⟩ rfl
        rw [hrun]
        exact ⟨rfl, _, rfl, rfl⟩
    · unfold macMsg
      rw [if_neg (by decide), if_pos (.inr rfl)]
      have hrun : cmacRun K key k .final (givenFor k sig) ⟨false, u, len, d⟩ i =
          (macResult k sig ((K.mac key d).take len) i, ⟨true, true, len, d⟩) := cmacEnded key hk sig i ⟨false, u, len, d⟩ rfl
      rw [hrun]
      exact ⟨rfl, _, rfl, rfl⟩

/-! ## AES-MAC -/

/-- States of an AES-MAC operation object. -/
def aesMacIs (L : AesLib) (m : Nat) (key : Bytes) (given : Option Bytes) (len : Nat) : Macking → Op → Prop
  | .taking d u, v => ∃ o, v = aesMacOp m key given o ∧ MacFed L d o ∧ o.inUse = u ∧ o.maclen = len ∧ (u = false → d = [])
  | .ended, v => ∃ o, v = aesMacOp m key given o ∧ o.finalized = true

theorem block_final (l : AesLib) (o : AesMacOp) (b : Bytes) (h : o.finalized = true) : (o.block l b).2.finalized = true := by
  unfold AesMacOp.block
  repeat' split
  all_goals first | exact h | rfl

theorem aesMac_ended (l : AesLib) (o : AesMacOp) (hu : o.inUse = true) (hf : o.finalized = false) : (o.finalize l).2.finalized = true := by
  have key := block_final l { o with finalized := true } (o.pad ++ List.replicate (16 - o.pad.length) 0) rfl
  unfold AesMacOp.finalize
  rw [hu, hf]
  simp only [Bool.not_true, Bool.false_eq_true, if_false]
  rw [hu] at key
  split
  · generalize AesMacOp.block l _ _ = p at key
    obtain ⟨r, o'⟩ := p
    cases r <;> exact key
  · rfl

theorem aesMac_end {l : AesLib} {o : AesMacOp} {d : Bytes} (h : MacFed l d o) (hu : o.inUse = true) (hk : k = .sign ∨ k = .verify ∨ k = .verifySig) (sig : Bytes) (i : OpIn) :
    ∃ o', macEnd k (givenFor k sig) i (o.finalize l) = (macResult k sig (Spec.cbcMac l.enc o.maclen d) i, o') ∧ o'.finalized = true := by
  have hf : o.finalized = false := by obtain ⟨_, _, _, _, hf⟩ := h; exact hf
  have hfin := aesMac_ended l o hu hf
  obtain ⟨o', e⟩ := h.finalize hu
  rw [e] at hfin ⊢
  exact ⟨o', macEnd_result hk sig _ i o', hfin⟩

theorem mac_behaves {s : AesSig} (hm : aesSig m = some s) (hc : s.cmac = false) (hk : k = .sign ∨ k = .verify ∨ k = .verifySig) (key sig : Bytes) (len : Nat) :
    Behaves (withAesMac M L K) m k len (fun d => Spec.cbcMac (L key).enc len d) false sig (aesMacIs (L key) m key (givenFor k sig) len) where
  plain := by
    intro s v h
    cases s with
    | taking d u => obtain ⟨o, rfl, -⟩ := h; exact ⟨rfl, rfl⟩
    | ended => obtain ⟨o, rfl, -⟩ := h; exact ⟨rfl, rfl⟩
  live := by rintro d u v ⟨o, rfl, ⟨_, _, _, _, hf⟩, -⟩; exact hf
  dead := by rintro v ⟨o, rfl, h⟩; exact h
  len := by
    rintro d u v a n ⟨o, rfl, -, -, hl, -⟩
    unfold lenOp withAesMac
    show (match aesSig m with
      | some s => (aesSigLen s (aesMacOp m key (givenFor k sig) o), aesMacOp m key (givenFor k sig) o)
      | none => M.len k a (aesMacOp m key (givenFor k sig) o) n : Res Nat × Op).1 = _
    rw [hm]
    unfold aesSigLen
    simp only [hc, Bool.false_eq_true, if_false, aesMacOf_op, hl]
  upd := by
    rintro d u v e i ⟨o, rfl, hf, -, hl, -⟩
    rw [run_aesMac hm hc]
    obtain ⟨o', e1, e2, e3, e4⟩ := hf.update i.data
    have hrun : aesMacRun (L key) k .update (givenFor k sig) o i = (.ok [], o') := by
      unfold aesMacRun
      simp only [e1]
      rfl
    rw [hrun]
    exact ⟨rfl, o', rfl, e2, e3, e4.trans hl, nofun⟩
  stop := by
    rintro d u v e a i ha ⟨o, rfl, hf, hu, hl, hd⟩
    rw [run_aesMac hm hc]
    have hnf : o.finalized = false := by obtain ⟨_, _, _, _, hf⟩ := hf; exact hf
    rcases ha with rfl | rfl
    · unfold macMsg
      rw [if_pos rfl]
      cases u with
      | true =>
        have hrun : aesMacRun (L key) k .oneShot (givenFor k sig) o i = (.error .operationNotInitialized, o) := by
          unfold aesMacRun macBegin
          simp only [hu, if_true]
          rfl
        rw [hrun]
        exact ⟨rfl, o, rfl, hf, hu, hl, nofun⟩
      | false =>
        have := hd rfl; subst this
        obtain ⟨o1, e1, e2, e3, e4⟩ := hf.update i.data
        obtain ⟨o2, f1, f2⟩ := aesMac_end e2 e3 hk sig i
        have hrun : aesMacRun (L key) k .oneShot (givenFor k sig) o i = (macResult k sig (Spec.cbcMac (L key).enc len i.data) i, o2) := by
          unfold aesMacRun macBegin
          simp only [hu, Bool.false_eq_true, if_false, e1]
          show macEnd k (givenFor k sig) i (o1.finalize (L key)) = _
          rw [f1, e4, hl]
          rfl
        rw [hrun]
        exact ⟨rfl, o2, rfl, f2⟩
    · unfold macMsg
      rw [if_neg (by decide)]
      cases u with
      | true =>
        rw [if_pos (.inl rfl)]
        obtain ⟨o2, f1, f2⟩ := aesMac_end hf hu hk sig i
        have hrun : aesMacRun (L key) k .final (givenFor k sig) o i = (macResult k sig (Spec.cbcMac (L key).enc len d) i, o2) := by
          show macEnd k (givenFor k sig) i (o.finalize (L key)) = _
          rw [f1, hl]
        rw [hrun]
        exact ⟨rfl, o2, rfl, f2⟩
      | false =>
        rw [if_neg (by decide)]
        have hrun : aesMacRun (L key) k .final (givenFor k sig) o i = (.error .operationNotInitialized, o) := by
          show macEnd k (givenFor k sig) i (o.finalize (L key)) = _
          unfold AesMacOp.finalize
          rw [hu]
          rfl
        rw [hrun]
        exact ⟨rfl, o, rfl, hf, hu, hl, hd⟩

/-! ## The start -/

theorem withAesMac_stateless {s : AesSig} (hm : aesSig m = some s) : Stateless (withAesMac M L K) m where
  new := by
    intro e k q key sig op h
    change (match aesSig m with
      | some s => _
      | none => _) = _ at h
    rw [hm] at h
    simp only at h
    split at h
    · unfold aesSigStart at h
      repeat' split at h
      all_goals first | (cases h; done) | skip
      all_goals (injection h with h; subst h; rfl)
    · cases h
  run := by
    intro e k a op i hop hu
    show (match aesSig op.mech with
      | some s => _
      | none => _ : Res Bytes × Op).2.upd = none
    rw [hop, hm]
    unfold aesSigDo
    simp only
    repeat' split
    all_goals first | exact hu | rfl
  len := by
    intro k a op n hop hu
    show (match aesSig op.mech with
      | some s => _
      | none => _ : Res Nat × Op).2.upd = none
    rw [hop, hm]
    exact hu

theorem aesSig_of (hm : aesMacMech m) : ∃ s, aesSig m = some s ∧ (s.cmac = true ↔ m = CKM_AES_CMAC ∨ m = CKM_AES_CMAC_GENERAL) ∧
    (s.general = true ↔ m = CKM_AES_MAC_GENERAL ∨ m = CKM_AES_CMAC_GENERAL) := by
  rcases hm with rfl | rfl | rfl | rfl
  · exact ⟨_, rfl, by decide, by decide⟩
  · exact ⟨_, rfl, by decide, by decide⟩
  · exact ⟨_, rfl, by decide, by decide⟩
  · exact ⟨_, rfl, by decide, by decide⟩

theorem start_of {s : AesSig} (hm : aesSig m = some s) {e : Env} {q sig v : Bytes} {o : Obj} {op : Op} (hv : o.getBytes CKA_VALUE = .ok v)
    (h : newOp (withAesMac M L K) e k m q (some o) sig = .ok op) :
    ∃ op', aesSigStart s m q o (givenFor k sig) = .ok op' ∧ op = { op' with mech := m, fin := false, busy := false } := by
  unfold newOp at h
  simp only at h
  split at h
  · cases h
  · cases hn : (withAesMac M L K).new e k m q (some o) sig with
    | error r => rw [hn] at h; cases h
    | ok o' =>
      rw [hn] at h
      injection h with h
      refine ⟨o', ?_, h.symm⟩
      change (match aesSig m with
        | some s => _
        | none => _) = _ at hn
      rw [hm] at hn
      exact hn

theorem param_size (hm : aesMacMech m) {s : AesSig} (hs : aesSig m = some s) {q : Bytes} {mm : AesMacMech} (h : sigParam s q = .ok mm) :
    (s.cmac = true → ∀ o, cmacNew mm = .ok o → o = ⟨false, false, sigSize m q, []⟩) ∧ (s.cmac = false → Spec.macLen mm = sigSize m q) := by
  rcases hm with rfl | rfl | rfl | rfl <;> injection hs with hs <;> subst hs <;> unfold sigParam at h <;>
    simp only [Bool.false_eq_true, if_false, if_true] at h <;> split at h <;> first | (cases h; done) | skip
  all_goals (injection h with h; subst h)
  · exact ⟨nofun, fun _ => rfl⟩
  · exact ⟨nofun, fun _ => rfl⟩
  · refine ⟨fun _ o ho => ?_, nofun⟩
    injection ho with ho
    exact ho.symm
  · refine ⟨fun _ o ho => ?_, nofun⟩
    unfold cmacNew at ho
    simp only at ho
    split at ho
    · cases ho
    · injection ho with ho
      exact ho.symm

/-- What the user of one of the four mechanisms sees. -/
theorem C87_talk {d : List (Nat × Db)} {tr tr2 : Trace} {e : Env} {h i key : Nat} {q sig v : Bytes} {X : List ((Act × OpIn) × Out)} (hm : aesMacMech m)
    (hk : k = .sign ∨ k = .verify ∨ k = .verifySig) (hX : Went (withAesMac M L K) C O d tr e h i k m q key sig (fun o => o.getBytes CKA_VALUE = .ok v) tr2 X) :
    X.map (·.2) = (describe (macTalk k (sigSize m q) (sigFor L K m q v) (decide (m = CKM_AES_CMAC ∨ m = CKM_AES_CMAC_GENERAL)) sig) (.taking [] false) (X.map (·.1))).1 := by
  obtain ⟨s, hs, hc, -⟩ := aesSig_of hm
  have hmm : manyMessages k = false := by rcases hk with h | h | h <;> subst h <;> rfl
  have hd : k ≠ .digest := by rcases hk with h | h | h <;> subst h <;> decide
  by_cases hcm : s.cmac = true
  · have hm' := hc.1 hcm
    have hf : sigFor L K m q v = fun d => (K.mac v d).take (sigSize m q) := by
      funext x
      unfold sigFor
      rw [if_neg]
      rcases hm' with h | h <;> subst h <;> decide
    rw [decide_eq_true hm', hf]
    have hB := cmac_behaves (M := M) (L := L) (K := K) hs hcm hk v sig (sigSize m q)
    refine went_sim (withAesMac_stateless hs) hmm hd hX hB.plain (behaves_solo hB hk) ?_
    intro o op hv hn
    obtain ⟨op', h1, rfl⟩ := start_of hs hv hn
    unfold aesSigStart at h1
    cases hp : sigParam s q with
    | error r => rw [hp] at h1; cases h1
    | ok mm =>
      rw [hp] at h1
      simp only [if_pos hcm] at h1
      cases hw : cmacNew mm with
      | error r => rw [hw] at h1; cases h1
      | ok o1 =>
        have ho := (param_size hm hs hp).1 hcm o1 hw
        subst ho
        rw [hw, hv] at h1
        simp only at h1
        repeat' split at h1
        all_goals first | (cases h1; done) | skip
        injection h1 with h1
        subst h1
        exact ⟨rfl, fun _ => rfl⟩
  · have hcm' : s.cmac = false := by simpa using hcm
    have hm' : ¬ (m = CKM_AES_CMAC ∨ m = CKM_AES_CMAC_GENERAL) := fun x => hcm (hc.2 x)
    have hf : sigFor L K m q v = fun d => Spec.cbcMac (L v).enc (sigSize m q) d := by
      funext x
      unfold sigFor
      rw [if_pos]
      rcases hm with h | h | h | h
      · exact .inl h
      · exact .inr h
      · exact absurd (.inl h) hm'
      · exact absurd (.inr h) hm'
    rw [decide_eq_false hm', hf]
    have hB := mac_behaves (M := M) (L := L) (K := K) hs hcm' hk v sig (sigSize m q)
    refine went_sim (withAesMac_stateless hs) hmm hd hX hB.plain (behaves_solo hB hk) ?_
    intro o op hv hn
    obtain ⟨op', h1, rfl⟩ := start_of hs hv hn
    unfold aesSigStart at h1
    cases hp : sigParam s q with
    | error r => rw [hp] at h1; cases h1
    | ok mm =>
      rw [hp] at h1
      simp only [if_neg hcm] at h1
      cases hw : aesMacNew mm with
      | error r => rw [hw] at h1; cases h1
      | ok o1 =>
        obtain ⟨n1, n2, n3, -⟩ := aesMacNew_fed (L v) mm o1 hw
        rw [(param_size hm hs hp).2 hcm'] at n3
        rw [hw, hv] at h1
        simp only at h1
        repeat' split at h1
        all_goals first | (cases h1; done) | skip
        injection h1 with h1
        subst h1
        have hfin : o1.finalized = false := by obtain ⟨_, _, _, _, hf⟩ := n1; exact hf
        refine ⟨o1, ?_, n1, n2, n3, fun _ => rfl⟩
        unfold aesMacOp
        rw [hfin]

/-! ## What is given out and what is accepted -/

section
variable {len : Nat} {mac : Bytes → Bytes} {free : Bool} {given : Bytes}

/-- A call that gives out a MAC. -/
theorem talk_bytes {s : Macking} {a : Act} {b : OpIn} {x : Bytes} (h : (macTalk .sign len mac free given s a b).1 = .bytes x) :
    ∃ d u, s = .taking d u ∧ (macTalk .sign len mac free given s a b).2 = .ended ∧ ((a = .oneShot ∧ u = false ∧ x = mac b.data) ∨ (a = .final ∧ x = mac d)) := by
  unfold macTalk at h ⊢
  by_cases hc : soloCall a
  case neg => rw [if_neg hc] at h; cases h
  rw [if_pos hc] at h ⊢
  cases s with
  | ended => cases h
  | taking d u =>
    simp only at h ⊢
    by_cases hu : a = .update
    · rw [if_pos hu] at h; cases h
    rw [if_neg hu] at h ⊢
    cases hg : macGate .sign len b with
    | some r =>
      rw [hg] at h
      simp only at h
      subst h
      unfold macGate at hg
      rw [if_pos rfl] at hg
      cases ho : b.out with
      | none => rw [ho] at hg; cases hg
      | some room =>
        rw [ho] at hg
        simp only at hg
        split at hg <;> cases hg
    | none =>
      rw [hg] at h
      simp only at h ⊢
      cases hm : macMsg free d u a b with
      | none => rw [hm] at h; cases h
      | some y =>
        rw [hm] at h
        simp only at h
        have hy : x = mac y := by
          unfold macSaid macResult at h
          rw [if_pos rfl] at h
          simp only [if_true] at h
          injection h with h
          exact h.symm
        refine ⟨d, u, rfl, rfl, ?_⟩
        unfold macMsg at hm
        by_cases h1 : a = .oneShot
        · rw [if_pos h1] at hm
          cases u with
          | true => cases hm
          | false => injection hm with hm; subst hm; exact .inl ⟨h1, rfl, hy⟩
        · rw [if_neg h1] at hm
          have h2 : a = .final := by
            rcases hc with h | h | h
            · exact absurd h h1
            · exact absurd h hu
            · exact h
          split at hm
          · injection hm with hm; subst hm; exact .inr ⟨h2, hy⟩
          · cases hm

/-- A call that accepts a signature. -/
theorem talk_ok (hk : k = .verify ∨ k = .verifySig) {s : Macking} {a : Act} {b : OpIn} (hu : a ≠ .update) (h : (macTalk k len mac free given s a b).1 = .ok) :
    ∃ d u, s = .taking d u ∧ ((a = .oneShot ∧ u = false ∧ mac b.data = if k = .verify then b.sig else given) ∨ (a = .final ∧ mac d = if k = .verify then b.sig else given)) := by
  have hns : k ≠ .sign := by rcases hk with h | h <;> subst h <;> decide
  unfold macTalk at h
  by_cases hc : soloCall a
  case neg => rw [if_neg hc] at h; cases h
  rw [if_pos hc] at h
  cases s with
  | ended => cases h
  | taking d u =>
    simp only at h
    rw [if_neg hu] at h
    cases hg : macGate k len b with
    | some r =>
      rw [hg] at h
      simp only at h
      subst h
      unfold macGate at hg
      rw [if_neg hns] at hg
      repeat' split at hg
      all_goals cases hg
    | none =>
      rw [hg] at h
      simp only at h
      cases hm : macMsg free d u a b with
      | none => rw [hm] at h; cases h
      | some y =>
        rw [hm] at h
        simp only at h
        have hy : mac y = if k = .verify then b.sig else given := by
          unfold macSaid macResult at h
          rw [if_neg hns] at h
          by_cases hz : mac y = if k = .verify then b.sig else given
          · exact hz
          · rw [if_neg hz] at h; cases h
        refine ⟨d, u, rfl, ?_⟩
        unfold macMsg at hm
        by_cases h1 : a = .oneShot
        · rw [if_pos h1] at hm
          cases u with
          | true => cases hm
          | false => injection hm with hm; subst hm; exact .inl ⟨h1, rfl, hy⟩
        · rw [if_neg h1] at hm
          have h2 : a = .final := by
            rcases hc with h | h | h
            · exact absurd h h1
            · exact absurd h hu
            · exact h
          split at hm
          · injection hm with hm; subst hm; exact .inr ⟨h2, hy⟩
          · cases hm

/-- One call: the data taken are those accepted. -/
theorem talk_step (hk : k = .sign ∨ k = .verify ∨ k = .verifySig) (d : Bytes) (u : Bool) (a : Act) (b : OpIn) :
    ((macTalk k len mac free given (.taking d u) a b).2 =
        .taking (d ++ if a = .update ∧ (macTalk k len mac free given (.taking d u) a b).1 = .ok then b.data else []) (u || decide (a = .update)) ∧
      (a = .update ∨ u = (u || decide (a = .update)))) ∨
    ((macTalk k len mac free given (.taking d u) a b).2 = .ended ∧ a ≠ .update ∧
      ((macTalk k len mac free given (.taking d u) a b).1 = .ok ∨ (macTalk k len mac free given (.taking d u) a b).1 = .err .signatureInvalid ∨
        ∃ x, (macTalk k len mac free given (.taking d u) a b).1 = .bytes x)) := by
  unfold macTalk
  by_cases hu : a = .update
  · subst hu
    rw [if_pos (by decide)]
    simp
  by_cases hc : soloCall a
  case neg => rw [if_neg hc]; simp [hu]
  rw [if_pos hc]
  simp only [if_neg hu]
  cases hg : macGate k len b with
  | some r => simp [hu]
  | none =>
    simp only
    cases hm : macMsg free d u a b with
    | none => simp [hu]
    | some x =>
      right
      refine ⟨rfl, hu, ?_⟩
      simp only
      unfold macSaid macResult
      by_cases hs : k = .sign
      · subst hs
        exact .inr (.inr ⟨_, rfl⟩)
      · rw [if_neg hs]
        by_cases hz : mac x = if k = .verify then b.sig else given
        · rw [if_pos hz]
          simp only [if_neg hs]
          exact .inl trivial
        · rw [if_neg hz]
          exact .inr (.inl rfl)

theorem ended_stays (l : List (Act × OpIn)) : (describe (macTalk k len mac free given) .ended l).2 = .ended := by
  induction l with
  | nil => rfl
  | cons x l ih =>
    obtain ⟨a, b⟩ := x
    have : (macTalk k len mac free given .ended a b).2 = .ended := by
      unfold macTalk
      split <;> rfl
    show (describe _ (macTalk k len mac free given .ended a b).2 l).2 = _
    rw [this]; exact ih

/-- All calls. -/
theorem talk_run (hk : k = .sign ∨ k = .verify ∨ k = .verifySig) (Y : List ((Act × OpIn) × Out)) (d : Bytes) (u : Bool)
    (hY : Y.map (·.2) = (describe (macTalk k len mac free given) (.taking d u) (Y.map (·.1))).1) :
    ((describe (macTalk k len mac free given) (.taking d u) (Y.map (·.1))).2 = .taking (d ++ partsOf Y) (u || Y.any fun p => decide (p.1.1 = .update))) ∨
    ((describe (macTalk k len mac free given) (.taking d u) (Y.map (·.1))).2 = .ended ∧ ¬ undecided Y) := by
  induction Y generalizing d u with
  | nil => left; simp [describe, partsOf]
  | cons p Y ih =>
    obtain ⟨⟨a, b⟩, r⟩ := p
    change r :: Y.map (·.2) = (macTalk k len mac free given (.taking d u) a b).1 ::
      (describe (macTalk k len mac free given) (macTalk k len mac free given (.taking d u) a b).2 (Y.map (·.1))).1 at hY
    injection hY with hr hY
    show (describe _ (macTalk k len mac free given (.taking d u) a b).2 (Y.map (·.1))).2 = _ ∨
      (describe _ (macTalk k len mac free given (.taking d u) a b).2 (Y.map (·.1))).2 = _ ∧ _
    rcases talk_step (len := len) (mac := mac) (free := free) (given := given) hk d u a b with ⟨h1, -⟩ | ⟨h1, h2, h3⟩
    · rw [h1] at hY ⊢
      rcases ih _ _ hY with h | ⟨h, hn⟩
      · left
        rw [h, ← hr]
        simp [partsOf, List.append_assoc, Bool.or_assoc]
      · exact .inr ⟨h, fun hu => hn fun p hp => hu p (List.mem_cons_of_mem _ hp)⟩
    · right
      rw [h1]
      refine ⟨ended_stays _, fun hu => ?_⟩
      rcases hu _ List.mem_cons_self with h | ⟨n1, n2, n3⟩
      · exact h2 h
      · rw [← hr] at h3
        rcases h3 with h | h | ⟨x, h⟩
        · exact n1 h
        · exact n2 h
        · exact n3 x h

end

variable {d : List (Nat × Db)} {tr tr2 : Trace} {e : Env} {h i key : Nat} {q sig v : Bytes} {Y : List ((Act × OpIn) × Out)} {b : OpIn} {r : Out} {a : Act}

/-- The last call of an exchange, in the state that the earlier ones left. -/
theorem talk_last (hm : aesMacMech m) (hk : k = .sign ∨ k = .verify ∨ k = .verifySig)
    (hX : Went (withAesMac M L K) C O d tr e h i k m q key sig (fun o => o.getBytes CKA_VALUE = .ok v) tr2 (Y ++ [((a, b), r)])) :
    ∃ s, r = (macTalk k (sigSize m q) (sigFor L K m q v) (decide (m = CKM_AES_CMAC ∨ m = CKM_AES_CMAC_GENERAL)) sig s a b).1 ∧
      (s = .taking (partsOf Y) (Y.any fun p => decide (p.1.1 = .update)) ∨ (s = .ended ∧ ¬ undecided Y)) := by
  obtain ⟨y1, y2⟩ := describe_last (C87_talk hm hk hX)
  refine ⟨_, y2, ?_⟩
  have := talk_run hk Y [] false y1
  simpa using this

/-- **C87**: what C_SignFinal gives out is the MAC of the parts accepted. -/
theorem C87_sign {x : Bytes} (hm : aesMacMech m)
    (hX : Went (withAesMac M L K) C O d tr e h i .sign m q key sig (fun o => o.getBytes CKA_VALUE = .ok v) tr2 (Y ++ [((.final, b), .bytes x)])) :
    x = sigFor L K m q v (partsOf Y) := by
  obtain ⟨s, h1, h2⟩ := talk_last hm (.inl rfl) hX
  obtain ⟨d', u, rfl, -, h3⟩ := talk_bytes h1.symm
  rcases h2 with h2 | ⟨h2, -⟩
  · injection h2 with h2 _; subst h2
    rcases h3 with ⟨h3, -⟩ | ⟨-, h3⟩
    · cases h3
    · exact h3
  · cases h2

/-- **C87**: what C_Sign gives out is the MAC of its data. -/
theorem C87_sign_oneshot {x : Bytes} (hm : aesMacMech m)
    (hX : Went (withAesMac M L K) C O d tr e h i .sign m q key sig (fun o => o.getBytes CKA_VALUE = .ok v) tr2 (Y ++ [((.oneShot, b), .bytes x)])) :
    x = sigFor L K m q v b.data := by
  obtain ⟨s, h1, h2⟩ := talk_last hm (.inl rfl) hX
  obtain ⟨d', u, rfl, -, h3⟩ := talk_bytes h1.symm
  rcases h3 with ⟨-, -, h3⟩ | ⟨h3, -⟩
  · exact h3
  · cases h3

/-- **C87**: what C_VerifyFinal accepts is the MAC of the parts accepted. -/
theorem C87_verify (hm : aesMacMech m)
    (hX : Went (withAesMac M L K) C O d tr e h i .verify m q key sig (fun o => o.getBytes CKA_VALUE = .ok v) tr2 (Y ++ [((.final, b), .ok)])) :
    b.sig = sigFor L K m q v (partsOf Y) := by
  obtain ⟨s, h1, h2⟩ := talk_last hm (.inr (.inl rfl)) hX
  obtain ⟨d', u, rfl, h3⟩ := talk_ok (.inl rfl) (by decide) h1.symm
  rcases h2 with h2 | ⟨h2, -⟩
  · injection h2 with h2 _; subst h2
    rcases h3 with ⟨h3, -⟩ | ⟨-, h3⟩
    · cases h3
    · exact h3.symm
  · cases h2

/-- **C87**: what C_Verify accepts is the MAC of its data. -/
theorem C87_verify_oneshot (hm : aesMacMech m)
    (hX : Went (withAesMac M L K) C O d tr e h i .verify m q key sig (fun o => o.getBytes CKA_VALUE = .ok v) tr2 (Y ++ [((.oneShot, b), .ok)])) :
    b.sig = sigFor L K m q v b.data := by
  obtain ⟨s, h1, h2⟩ := talk_last hm (.inr (.inl rfl)) hX
  obtain ⟨d', u, rfl, h3⟩ := talk_ok (.inl rfl) (by decide) h1.symm
  rcases h3 with ⟨-, -, h3⟩ | ⟨h3, -⟩
  · exact h3.symm
  · cases h3

/-- **C87**: if C_VerifySignatureFinal succeeds, the signature given at the start is the MAC of the parts accepted. -/
theorem C87_given (hm : aesMacMech m)
    (hX : Went (withAesMac M L K) C O d tr e h i .verifySig m q key sig (fun o => o.getBytes CKA_VALUE = .ok v) tr2 (Y ++ [((.final, b), .ok)])) :
    sig = sigFor L K m q v (partsOf Y) := by
  obtain ⟨s, h1, h2⟩ := talk_last hm (.inr (.inr rfl)) hX
  obtain ⟨d', u, rfl, h3⟩ := talk_ok (.inr rfl) (by decide) h1.symm
  rcases h2 with h2 | ⟨h2, -⟩
  · injection h2 with h2 _; subst h2
    rcases h3 with ⟨h3, -⟩ | ⟨-, h3⟩
    · cases h3
    · exact h3.symm
  · cases h2

/-- **C87**: if C_VerifySignature succeeds, the signature given at the start is the MAC of the data. -/
theorem C87_given_oneshot (hm : aesMacMech m)
    (hX : Went (withAesMac M L K) C O d tr e h i .verifySig m q key sig (fun o => o.getBytes CKA_VALUE = .ok v) tr2 (Y ++ [((.oneShot, b), .ok)])) :
    sig = sigFor L K m q v b.data := by
  obtain ⟨s, h1, h2⟩ := talk_last hm (.inr (.inr rfl)) hX
  obtain ⟨d', u, rfl, h3⟩ := talk_ok (.inr rfl) (by decide) h1.symm
  rcases h3 with ⟨-, -, h3⟩ | ⟨h3, -⟩
  · exact h3.symm
  · cases h3

/-- The message that a call ends. -/
def Spec.endedMsg (m : Nat) (Y : List ((Act × OpIn) × Out)) (a : Act) (b : OpIn) (msg : Bytes) : Prop :=
  (a = .oneShot ∧ ¬ somePart Y ∧ msg = b.data) ∨ (a = .final ∧ (somePart Y ∨ m = CKM_AES_CMAC ∨ m = CKM_AES_CMAC_GENERAL) ∧ msg = partsOf Y)

theorem somePart_iff : somePart Y ↔ (Y.any fun p => decide (p.1.1 = .update)) = true := by
  unfold somePart
  rw [List.any_eq_true]
  simp

theorem ended_msg {msg : Bytes} (hY : undecided Y) (ha : endedMsg m Y a b msg) {s : Macking} {len : Nat} {mac : Bytes → Bytes} {given : Bytes}
    (hs : s = .taking (partsOf Y) (Y.any fun p => decide (p.1.1 = .update)) ∨ (s = .ended ∧ ¬ undecided Y)) (hg : macGate k len b = none) :
    (macTalk k len mac (decide (m = CKM_AES_CMAC ∨ m = CKM_AES_CMAC_GENERAL)) given s a b).1 = macSaid k (macResult k given (mac msg) b) := by
  rcases hs with rfl | ⟨-, hn⟩
  case inr => exact absurd hY hn
  unfold macTalk
  rcases ha with ⟨rfl, hp, rfl⟩ | ⟨rfl, hp, rfl⟩
  · rw [if_pos (by decide)]
    simp only
    rw [if_neg (by decide), hg]
    have : (Y.any fun p => decide (p.1.1 = .update)) = false := by
      rw [somePart_iff] at hp
      exact Bool.not_eq_true _ ▸ hp
    unfold macMsg
    rw [if_pos rfl, this]
    rfl
  · rw [if_pos (by decide)]
    simp only
    rw [if_neg (by decide), hg]
    unfold macMsg
    rw [if_neg (by decide), if_pos]
    rcases hp with hp | hp
    · exact .inl (somePart_iff.1 hp)
    · exact .inr (decide_eq_true hp)

/-- **C87**: with a buffer that is large enough, C_Sign gives out the MAC of its data if there were no parts, C_SignFinal that of the parts if there were any (CMAC: always). -/
theorem C87_gives {msg : Bytes} {room : Nat} (hm : aesMacMech m)
    (hX : Went (withAesMac M L K) C O d tr e h i .sign m q key sig (fun o => o.getBytes CKA_VALUE = .ok v) tr2 (Y ++ [((a, b), r)])) (hY : undecided Y)
    (ha : endedMsg m Y a b msg) (hb : b.out = some room) (hr : sigSize m q ≤ room) : r = .bytes (sigFor L K m q v msg) := by
  obtain ⟨s, h1, h2⟩ := talk_last hm (.inl rfl) hX
  rw [h1, ended_msg hY ha h2]
  · rfl
  · unfold macGate
    rw [if_pos rfl, hb]
    simp only
    rw [if_neg (by omega)]

/-- **C87**: the MAC is accepted and any other signature of its length is refused. -/
theorem C87_accepts {msg : Bytes} (hm : aesMacMech m) (hk : k = .verify ∨ k = .verifySig)
    (hX : Went (withAesMac M L K) C O d tr e h i k m q key sig (fun o => o.getBytes CKA_VALUE = .ok v) tr2 (Y ++ [((a, b), r)])) (hY : undecided Y)
    (ha : endedMsg m Y a b msg) (hb : k = .verify → b.sig.length = sigSize m q) :
    r = if (if k = .verify then b.sig else sig) = sigFor L K m q v msg then .ok else .err .signatureInvalid := by
  obtain ⟨s, h1, h2⟩ := talk_last hm (.inr hk) hX
  have hns : k ≠ .sign := by rcases hk with h | h <;> subst h <;> decide
  rw [h1, ended_msg hY ha h2]
  · unfold macSaid macResult
    rw [if_neg hns]
    by_cases hz : sigFor L K m q v msg = if k = .verify then b.sig else sig
    · rw [if_pos hz, if_pos hz.symm]
      simp only [if_neg hns]
    · rw [if_neg hz, if_neg (fun x => hz x.symm)]
  · unfold macGate
    rw [if_neg hns]
    split
    · rename_i hv; rw [hb hv]; simp
    · rfl

/-- **C87**, violation: the general mechanisms take a length of 0; the empty signature is then right for every message. -/
theorem C87_zero_violation (hm : m = CKM_AES_MAC_GENERAL ∨ m = CKM_AES_CMAC_GENERAL)
    (hX : Went (withAesMac M L K) C O d tr e h i .verify m (ulongBytes 0) key sig (fun o => o.getBytes CKA_VALUE = .ok v) tr2 [((.oneShot, b), r)]) (hb : b.sig = []) : r = .ok := by
  have hz : sigSize m (ulongBytes 0) = 0 := by rcases hm with h | h <;> subst h <;> decide
  have hm' : aesMacMech m := by rcases hm with h | h; exact .inr (.inl h); exact .inr (.inr (.inr h))
  have := C87_accepts (Y := []) (msg := b.data) hm' (.inl rfl) hX (fun p hp => absurd hp List.not_mem_nil) (.inl ⟨rfl, fun ⟨p, hp, _⟩ => absurd hp List.not_mem_nil, rfl⟩)
    (fun _ => by rw [hb, hz]; rfl)
  rw [this, if_pos rfl, if_pos]
  unfold sigFor
  rw [hb, hz]
  split
  · simp [cbcMac]
  · simp

/-! ## A case -/

/-- A toy CMAC. -/
def exCmac : CmacLib where
  mac k d := (List.range 16).map fun j => UInt8.ofNat ((k ++ d).foldl (fun a b => (31 * a + b.toNat + j) % 65521) 1)
  mac_len := by intro k d; simp

abbrev exSigM : Mechs := withAesMac exMechs (fun _ => exAesLib) exCmac

/-- An AES key (11) and two sessions. -/
def exSigStart : Trace :=
  [(exEnv 0, .initialize [(7, ⟨[CKM_AES_MAC, CKM_AES_MAC_GENERAL, CKM_AES_CMAC, CKM_AES_CMAC_GENERAL, CKM_AES_ECB], none, none⟩)]), (exEnv 1, .initToken 7 exSoPin none),
   (exEnv 2, .openSession 7 (CKF_RW_SESSION ||| CKF_SERIAL_SESSION)),
   (exEnv 3, .login 1 CKU_SO exSoPin), (exEnv 4, .sess 1 (.initPin exPin)), (exEnv 5, .logout 1), (exEnv 6, .login 1 CKU_USER exPin),
   (exEnv 7, .sess 1 (.createObject [.ofUlong CKA_CLASS CKO_SECRET_KEY, .ofUlong CKA_KEY_TYPE CKK_AES,
     .mk' CKA_VALUE exIv, .ofBool CKA_SIGN true, .ofBool CKA_VERIFY true])),
   (exEnv 8, .openSession 7 (CKF_RW_SESSION ||| CKF_SERIAL_SESSION))]

abbrev exSigSt : St := after exSigM exCrypto exOracle [] exSigStart
def exSigObj : Obj := (readAt exCrypto exSigSt 7 11).getD (Obj.new 0)

/-- A call with data, a signature and a buffer. -/
def exSIn (d sig : Bytes) (room : Option Nat) : OpIn := { (default : OpIn) with data := d, sig := sig, out := room }

/-- 27 bytes in two parts, with a CMAC on the other session, a search, a query and a short buffer in between. -/
def exSigTr (k : OpKind) (sig : Bytes) : Trace :=
  [(exEnv 10, .op 1 (.opRun k .update (exSIn (List.replicate 20 9) [] none))),
   (exEnv 11, .op 2 (.opInit .sign (some (CKM_AES_CMAC, [])) 11 [])),
   (exEnv 12, .op 2 (.opRun .sign .update (exSIn (List.replicate 30 5) [] none))),
   (exEnv 13, .sess 1 (.findInit [])),
   (exEnv 14, .op 1 (.opRun .sign .final (exSIn [] [] none))),
   (exEnv 15, .op 1 (.opRun .sign .final (exSIn [] [] (some 3)))),
   (exEnv 16, .op 1 (.opRun k .update (exSIn (List.replicate 7 4) [] none))),
   (exEnv 17, .op 1 (.opRun k .final (exSIn [] sig (some 16))))]

abbrev exSigSt' (k : OpKind) (m : Nat) (q sig : Bytes) : St := (step exSigM exCrypto exOracle (exEnv 9) exSigSt (.op 1 (.opInit k (some (m, q)) 11 sig))).2

set_option maxRecDepth 20000 in
theorem exSig_went {k : OpKind} {m : Nat} {q sig : Bytes} {tr2 : Trace} {X : List ((Act × OpIn) × Out)}
    (h1 : (step exSigM exCrypto exOracle (exEnv 9) exSigSt (.op 1 (.opInit k (some (m, q)) 11 sig))).1 = .ok)
    (h2 : X = exchanged 1 k (hist exSigM exCrypto exOracle (exSigSt' k m q sig) tr2))
    (h3 : ∃ j, onSlot exSigM exCrypto exOracle (run exSigM exCrypto exOracle (exSigSt' k m q sig) tr2) 1 j)
    (h4 : tr2.all (fun p => meddles 1 k p.2 == false) = true) (h5 : tr2.all (fun p => match p.2 with
      | .openSession _ _ => false
      | _ => true) = true) :
    Went exSigM exCrypto exOracle [] exSigStart (exEnv 9) 1 7 k m q 11 sig (fun o => o.getBytes CKA_VALUE = .ok exIv) tr2 X where
  there := ⟨exEnv 0, .rwUser, CKF_RW_SESSION ||| CKF_SERIAL_SESSION, by decide +kernel⟩
  value := seen_read (o := exSigObj) (by decide +kernel) (by decide +kernel)
  calm := fun _ => seen_read (o := exSigObj) (by decide +kernel) (by decide +kernel)
  started := h1
  quiet := fun p hp => eq_of_beq (List.all_eq_true.1 h4 p hp)
  same := noOpen_of h5
  still := h3
  exchange := h2

/-- The 27 bytes. -/
def exSigMsg : Bytes := List.replicate 20 9 ++ List.replicate 7 4

/-- The exchange before C_SignFinal. -/
def exSigY (n : Nat) : List ((Act × OpIn) × Out) :=
  [((.update, exSIn (List.replicate 20 9) [] none), .ok), ((.final, exSIn [] [] none), .size n), ((.final, exSIn [] [] (some 3)), .err .bufferTooSmall),
   ((.update, exSIn (List.replicate 7 4) [] none), .ok)]

/-- The exchange before C_VerifyFinal. -/
def exSigY' : List ((Act × OpIn) × Out) :=
  [((.update, exSIn (List.replicate 20 9) [] none), .ok), ((.update, exSIn (List.replicate 7 4) [] none), .ok)]

theorem exSig_undecided (n : Nat) : undecided (exSigY n) ∧ undecided exSigY' ∧ somePart (exSigY n) ∧ somePart exSigY' := by
  refine ⟨?_, ?_, ⟨_, List.mem_cons_self, rfl⟩, ⟨_, List.mem_cons_self, rfl⟩⟩
  · intro p hp
    simp only [exSigY, List.mem_cons, List.mem_nil_iff, or_false] at hp
    rcases hp with rfl | rfl | rfl | rfl
    · exact .inl rfl
    · exact .inr ⟨nofun, nofun, nofun⟩
    · exact .inr ⟨nofun, nofun, nofun⟩
    · exact .inl rfl
  · intro p hp
    simp only [exSigY', List.mem_cons, List.mem_nil_iff, or_false] at hp
    rcases hp with rfl | rfl <;> exact .inl rfl

set_option maxRecDepth 20000 in
/-- AES-MAC: `C87_gives` and `C87_sign` apply. -/
theorem exSig_mac : Went exSigM exCrypto exOracle [] exSigStart (exEnv 9) 1 7 .sign CKM_AES_MAC [] 11 [] (fun o => o.getBytes CKA_VALUE = .ok exIv) (exSigTr .sign [])
    (exSigY 8 ++ [((.final, exSIn [] [] (some 16)), .bytes (cbcMac exAesLib.enc 8 exSigMsg))]) :=
  exSig_went (by decide +kernel) (by decide +kernel) ⟨7, exEnv 0, .rwUser, CKF_RW_SESSION ||| CKF_SERIAL_SESSION, by decide +kernel⟩ (by decide +kernel) (by decide +kernel)

set_option maxRecDepth 20000 in
/-- CMAC with 5 bytes. -/
theorem exSig_cmac : Went exSigM exCrypto exOracle [] exSigStart (exEnv 9) 1 7 .sign CKM_AES_CMAC_GENERAL (ulongBytes 5) 11 [] (fun o => o.getBytes CKA_VALUE = .ok exIv) (exSigTr .sign [])
    (exSigY 5 ++ [((.final, exSIn [] [] (some 16)), .bytes ((exCmac.mac exIv exSigMsg).take 5))]) :=
  exSig_went (by decide +kernel) (by decide +kernel) ⟨7, exEnv 0, .rwUser, CKF_RW_SESSION ||| CKF_SERIAL_SESSION, by decide +kernel⟩ (by decide +kernel) (by decide +kernel)

example : cbcMac exAesLib.enc 8 exSigMsg = sigFor (fun _ => exAesLib) exCmac CKM_AES_MAC [] exIv exSigMsg ∧
    (exCmac.mac exIv exSigMsg).take 5 = sigFor (fun _ => exAesLib) exCmac CKM_AES_CMAC_GENERAL (ulongBytes 5) exIv exSigMsg :=
  ⟨C87_sign (.inl rfl) exSig_mac, C87_sign (.inr (.inr (.inr rfl))) exSig_cmac⟩

example : endedMsg CKM_AES_MAC (exSigY 8) .final (exSIn [] [] (some 16)) exSigMsg := .inr ⟨rfl, .inl (exSig_undecided 8).2.2.1, rfl⟩

set_option maxRecDepth 20000 in
/-- C_VerifyFinal accepts it. -/
theorem exSig_verify : Went exSigM exCrypto exOracle [] exSigStart (exEnv 9) 1 7 .verify CKM_AES_MAC [] 11 [] (fun o => o.getBytes CKA_VALUE = .ok exIv)
    (exSigTr .verify (cbcMac exAesLib.enc 8 exSigMsg)) (exSigY' ++ [((.final, exSIn [] (cbcMac exAesLib.enc 8 exSigMsg) (some 16)), .ok)]) :=
  exSig_went (by decide +kernel) (by decide +kernel) ⟨7, exEnv 0, .rwUser, CKF_RW_SESSION ||| CKF_SERIAL_SESSION, by decide +kernel⟩ (by decide +kernel) (by decide +kernel)

set_option maxRecDepth 20000 in
/-- The signature given to C_VerifySignatureInit is not that of the parts. -/
theorem exSig_given : Went exSigM exCrypto exOracle [] exSigStart (exEnv 9) 1 7 .verifySig CKM_AES_CMAC [] 11 (exCmac.mac exIv [1]) (fun o => o.getBytes CKA_VALUE = .ok exIv)
    (exSigTr .verifySig []) (exSigY' ++ [((.final, exSIn [] [] (some 16)), .err .signatureInvalid)]) :=
  exSig_went (by decide +kernel) (by decide +kernel) ⟨7, exEnv 0, .rwUser, CKF_RW_SESSION ||| CKF_SERIAL_SESSION, by decide +kernel⟩ (by decide +kernel) (by decide +kernel)

set_option maxRecDepth 20000 in
/-- With the right one, in one call. -/
theorem exSig_given_oneshot : Went exSigM exCrypto exOracle [] exSigStart (exEnv 9) 1 7 .verifySig CKM_AES_CMAC [] 11 (exCmac.mac exIv [1, 2]) (fun o => o.getBytes CKA_VALUE = .ok exIv)
    (exShort .verifySig .oneShot (exSIn [1, 2] [] none)) [((.oneShot, exSIn [1, 2] [] none), .ok)] :=
  exSig_went (by decide +kernel) (by decide +kernel) ⟨7, exEnv 0, .rwUser, CKF_RW_SESSION ||| CKF_SERIAL_SESSION, by decide +kernel⟩ (by decide +kernel) (by decide +kernel)

set_option maxRecDepth 20000 in
/-- `C87_zero_violation` applies. -/
theorem exSig_zero : Went exSigM exCrypto exOracle [] exSigStart (exEnv 9) 1 7 .verify CKM_AES_CMAC_GENERAL (ulongBytes 0) 11 [] (fun o => o.getBytes CKA_VALUE = .ok exIv)
    (exShort .verify .oneShot (exSIn [1, 2] [] none)) [((.oneShot, exSIn [1, 2] [] none), .ok)] :=
  exSig_went (by decide +kernel) (by decide +kernel) ⟨7, exEnv 0, .rwUser, CKF_RW_SESSION ||| CKF_SERIAL_SESSION, by decide +kernel⟩ (by decide +kernel) (by decide +kernel)

end Kry
