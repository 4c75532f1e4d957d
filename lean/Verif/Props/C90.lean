import Verif.Model.RsaCalls
import Verif.Props.C78
import Verif.Proofs.SigTalk

/-!
# C90: RSA signatures through the calls of a session

* `C90_signed`: what C_Sign and C_SignFinal give out is OpenSSL's signature of the data, or of the parts accepted, of the length of the modulus, and the data fit the padding.
  `C90_gives`: it is given out.  `C90_range`: data that do not fit are answered with CKR_DATA_LEN_RANGE.
* `C90_verified`: what a verification accepts.  `C90_verdict_partial`: what it answers, with CKR_DEVICE_ERROR for a signature that is not accepted.
* `C90_roundtrip`: a signature made through one session is accepted through any other with the public key.
* `C90_whole`: CKM_RSA_PKCS, CKM_RSA_X_509 and CKM_RSA_PKCS_PSS take no parts, and a part that was refused changes nothing.
* `C90_invalid_violation`: a wrong signature is not answered with CKR_SIGNATURE_INVALID.
-/

namespace Kry
namespace Spec

/-- An RSA key with a mechanism: the signature of a message, and whether a signature is one of a message. -/
structure RsaCore where
  sign : Bytes → Option Bytes
  ver : Bytes → Bytes → Bool

/-- OpenSSL with a key of `n` bytes computes `A`; a refusal is an error of OpenSSL. -/
structure RsaFollows (P : RsaPrims) (plain : Bool) (A : RsaCore) (n : Nat) : Prop where
  len : ∀ x, P.signLen x = .ok n
  some : ∀ x s, A.sign x = some s → s.length = n ∧ (if plain then P.sign else P.signFed) x = .ok s
  none : ∀ x, A.sign x = none → (if plain then P.sign else P.signFed) x = .error .deviceError
  ver : ∀ x s, (if plain then P.ver else P.verFed) x s = if A.ver x s then .ok () else .error .deviceError

/-- The data are not hashed by the token. -/
def unhashed (m : Nat) : Prop := m = CKM_RSA_X_509 ∨ m = CKM_RSA_PKCS ∨ m = CKM_RSA_PKCS_PSS

/-- Data that can be verified: no more than can be signed. -/
def mayVerify (k : Nat) (mech : RsaMech) (len : Nat) : Prop :=
  match mech with
  | .pss p => len ≤ p.hash.size
  | _ => maySign k mech len

/-- Key object `o` is made of `key`. -/
def rsaKeyIs (k : OpKind) (key : RsaKey) (o : Obj) : Prop :=
  o.getBytes CKA_MODULUS = .ok key.n ∧ o.getBytes CKA_PUBLIC_EXPONENT = .ok key.e ∧ (key.priv = true ↔ k = .sign) ∧
  (k = .sign → o.getBytes CKA_PRIVATE_EXPONENT = .ok key.d ∧
    key.crt = [CKA_PRIME_1, CKA_PRIME_2, CKA_EXPONENT_1, CKA_EXPONENT_2, CKA_COEFFICIENT].map fun t => (o.find t).map (·.value)) ∧
  (k ≠ .sign → key.d = [] ∧ key.crt = [])

instance (k : Nat) (mech : RsaMech) (len : Nat) : Decidable (maySign k mech len) := by unfold maySign; split <;> infer_instance

instance (k : Nat) (mech : RsaMech) (len : Nat) : Decidable (mayVerify k mech len) := by unfold mayVerify; split <;> infer_instance

end Spec

open Spec

variable {M : Mechs} {C : Crypto} {O : Oracle} {K : RsaKeys} {k : OpKind} {m : Nat}

/-- The answer for a message. -/
def rsaSaid (k : OpKind) (A : RsaCore) (n : Nat) (mech : RsaMech) (given : Bytes) (x : Bytes) (b : OpIn) : Out :=
  if k = .sign then
    if maySign n mech x.length then match A.sign x with
      | none => .err .deviceError
      | some s => .bytes s
    else .err .dataLenRange
  else if mayVerify n mech x.length then if A.ver x (if k = .verify then b.sig else given) then .ok else .err .deviceError
  else .err .dataLenRange

theorem rsaSaid_on {A : RsaCore} {n : Nat} {mech : RsaMech} {given x : Bytes} {b : OpIn} : ¬ goesOn (rsaSaid k A n mech given x b) := by
  unfold rsaSaid
  repeat' split
  all_goals (unfold goesOn; first | exact fun h => h | (intro h; simp at h))

/-! ## The operation object -/

theorem unpackSigs (l : List (Option Bytes)) : (l.map packSig).map unpackSig = l := by
  rw [List.map_map]
  conv => rhs; rw [← List.map_id l]
  apply List.map_congr_left
  intro a _
  exact packSig_un a

theorem rsaOf_op {m : Nat} {q : Bytes} {key : RsaKey} {o : RsaOp} (hm : rsaMechOf m q = .ok o.mech) (h1 : o.sigctx = true) (h2 : o.encctx = false) :
    rsaOf (rsaOp m q key o) = some (q, key, o) := by
  unfold rsaOf
  have : unpackL 12 (rsaOp m q key o).data = [q, packBool key.priv, key.n, key.e, key.d, packNat key.crt.length, packL (key.crt.map packSig), packNat o.maxInput, packNat o.outputLen,
      packBool o.inUse, o.data, packSig o.sig] :=
    unpackL_pack [q, packBool key.priv, key.n, key.e, key.d, packNat key.crt.length, packL (key.crt.map packSig), packNat o.maxInput, packNat o.outputLen,
      packBool o.inUse, o.data, packSig o.sig]
  rw [this]
  simp only [show (rsaOp m q key o).mech = m from rfl, hm, packSig_un, packBool_un, packNat_from]
  have e : unpackL key.crt.length (packL (key.crt.map packSig)) = key.crt.map packSig := by
    have := unpackL_pack (key.crt.map packSig)
    rwa [List.length_map] at this
  rw [e, unpackSigs]
  cases o
  simp only at h1 h2
  subst h1 h2
  rfl

/-- The operation with data fed. -/
def rsaHas (o : RsaOp) (d : Bytes) (u : Bool) : RsaOp := { o with inUse := u, data := d }

/-- A new operation. -/
structure RsaMade (k : OpKind) (mech : RsaMech) (n : Nat) (sig : Bytes) (o : RsaOp) : Prop where
  len : o.outputLen = n
  max : rsaMaxLen n mech = .ok o.maxInput
  mech : o.mech = mech
  final : o.finalized = false
  ctx : o.sigctx = true
  enc : o.encctx = false
  same : o = rsaHas o [] false
  sig : k = .verifySig → o.sig = some sig ∧ sig.length = n

theorem rsa_made {mech : RsaMech} {modulus sig : Bytes} {o : RsaOp} (h : RsaOp.sigverNew 1024 16384 mech modulus (givenFor k sig) = .ok o) : RsaMade k mech modulus.length sig o := by
  obtain ⟨x, rfl, h2, h3⟩ := sig_made h
  refine ⟨rfl, h2, rfl, rfl, rfl, rfl, rfl, fun hv => ?_⟩
  unfold givenFor at h3 ⊢
  rw [if_pos hv] at h3 ⊢
  exact ⟨rfl, h3 _ rfl⟩

section
variable {P : RsaPrims} {A : RsaCore} {n : Nat} {mech : RsaMech} {sig q : Bytes} {o : RsaOp} {key : RsaKey}

/-- States of an operation object made as `o`. -/
def rsaIs (m : Nat) (q : Bytes) (key : RsaKey) (o : RsaOp) : Feeding → Op → Prop
  | .taking d u, v => v = rsaOp m q key (rsaHas o d u) ∧ (u = false → d = []) ∧ (o.mech.plain = true → u = false)
  | .ended, v => ∃ o', v = rsaOp m q key o' ∧ o'.finalized = true

theorem run_rsa (hm : rsaSigns m = true) (hk : rsaKind k = true) (hl : K.load mech key = some P) (hq : rsaMechOf m q = .ok mech) {o : RsaOp} (h0 : o.mech = mech) (h1 : o.sigctx = true)
    (h2 : o.encctx = false) (e : Env) (a : Act) (i : OpIn) :
    runOp (withRsa M K) e k a (rsaOp m q key o) i = ((rsaRun P k a o i).1, rsaOp m q key (rsaRun P k a o i).2) := by
  unfold runOp withRsa
  simp only [show (rsaOp m q key o).mech = m from rfl, hm, hk, and_self, if_true]
  unfold rsaDo
  rw [rsaOf_op (h0 ▸ hq) h1 h2]
  simp only [show (rsaOp m q key o).mech = m from rfl, h0, hl]
  rfl

theorem rsa_gate {b : OpIn} (hg : macGate k n b = none) (hv : k = .verify) : b.sig.length = n := by
  subst hv
  unfold macGate at hg
  rw [if_neg (by decide), if_pos rfl] at hg
  split at hg
  · cases hg
  · rename_i h; exact (Decidable.of_not_not h).symm

theorem rsa_wanted (h : RsaMade k mech n sig o) {b : OpIn} (hk : k = .verify ∨ k = .verifySig) {o' : RsaOp} (e2 : o'.sig = o.sig) :
    o'.wanted (if k = .verify then some b.sig else none) = .ok (if k = .verify then b.sig else sig) := by
  unfold RsaOp.wanted
  rcases hk with rfl | rfl
  · rfl
  · rw [if_neg (by decide), if_neg (by decide)]
    simp only
    rw [e2, (h.sig rfl).1]

theorem rsa_verify_said {x : Bytes} {b : OpIn} {o' : RsaOp} (F : RsaFollows P mech.plain A n) (hs : k ≠ .sign) (hx : mayVerify n mech x.length) (hf : o'.finalized = true) :
    macSaid k (rsaNothing ((if mech.plain then P.ver else P.verFed) x (if k = .verify then b.sig else sig), o')).1 = rsaSaid k A n mech sig x b ∧
    (rsaNothing ((if mech.plain then P.ver else P.verFed) x (if k = .verify then b.sig else sig), o')).2.finalized = true := by
  rw [F.ver x]
  unfold rsaSaid
  rw [if_neg hs, if_pos hx]
  cases A.ver x (if k = .verify then b.sig else sig) with
  | true => exact ⟨by simp [rsaNothing, macSaid, hs], hf⟩
  | false => exact ⟨rfl, hf⟩

theorem rsa_more {o : RsaOp} (hp : o.mech.plain = false) (hf : o.finalized = false) (hc : o.sigctx = true) (x : Bytes) :
    o.update x = (.ok (), { o with inUse := true, data := o.data ++ x }) := by
  unfold RsaOp.update
  rw [if_neg (by rw [hf]; decide), if_neg (by rw [hp, Bool.and_false]; decide)]
  simp only [hc, if_true]

theorem rsa_no {o : RsaOp} (hp : o.mech.plain = true) (hf : o.finalized = false) (hu : o.inUse = false) (x : Bytes) : o.update x = (.error .operationNotInitialized, o) := by
  unfold RsaOp.update
  rw [if_neg (by rw [hf]; decide), if_pos (by rw [hu, hp]; decide)]

theorem may_hashed (hp : mech.plain = false) (l : Nat) : maySign n mech l ∧ mayVerify n mech l := by
  cases mech <;> simp_all [RsaMech.plain, maySign, mayVerify]

/-- The end of an operation that takes parts. -/
theorem rsa_end (F : RsaFollows P mech.plain A n) (hp : mech.plain = false) (hk : k = .sign ∨ k = .verify ∨ k = .verifySig) (h : RsaMade k mech n sig o) (d : Bytes) (b : OpIn) :
    macSaid k (rsaRun P k .final (rsaHas o d true) b).1 = rsaSaid k A n mech sig d b ∧ (rsaRun P k .final (rsaHas o d true) b).2.finalized = true := by
  have hfin : (rsaHas o d true).finalized = false := h.final
  have hctx : (rsaHas o d true).sigctx = true := h.ctx
  rcases hk with hk | hk
  · subst hk
    show macSaid .sign ((rsaHas o d true).signFinal P o.outputLen).1 = _ ∧ ((rsaHas o d true).signFinal P o.outputLen).2.finalized = true
    have e : (rsaHas o d true).signFinal P o.outputLen = match P.signFed d with
        | .error r => (.error r, { rsaHas o d true with finalized := true })
        | .ok s => if s.length ≠ o.outputLen then (.error .deviceError, { rsaHas o d true with finalized := true }) else (.ok s, { rsaHas o d true with finalized := true }) := by
      unfold RsaOp.signFinal
      rw [if_neg (by rw [show (rsaHas o d true).inUse = true from rfl]; decide), if_neg (by rw [hfin]; decide)]
      simp only [hctx, if_true]
      rfl
    rw [e]
    unfold rsaSaid
    rw [if_pos rfl, if_pos (may_hashed hp _).1]
    cases hs : A.sign d with
    | none =>
      have := F.none d hs
      rw [hp, if_neg (by decide)] at this
      rw [this]
      exact ⟨rfl, rfl⟩
    | some s =>
      obtain ⟨l1, l2⟩ := F.some d s hs
      rw [hp, if_neg (by decide)] at l2
      rw [l2]
      simp only
      rw [h.len, if_neg (fun hc => hc l1)]
      exact ⟨rfl, rfl⟩
  · have hs : k ≠ .sign := by rcases hk with h | h <;> subst h <;> decide
    have hw := rsa_wanted h (b := b) hk (o' := { rsaHas o d true with finalized := true }) rfl
    have hrun : rsaRun P k .final (rsaHas o d true) b = rsaNothing (P.verFed d (if k = .verify then b.sig else sig), { rsaHas o d true with finalized := true }) := by
      have : (rsaHas o d true).verifyFinal P (if k = .verify then some b.sig else none) = (P.verFed d (if k = .verify then b.sig else sig), { rsaHas o d true with finalized := true }) := by
        have e : (rsaHas o d true).verifyFinal P (if k = .verify then some b.sig else none) =
            match ({ rsaHas o d true with finalized := true } : RsaOp).wanted (if k = .verify then some b.sig else none) with
            | .error r => (.error r, { rsaHas o d true with finalized := true })
            | .ok s => (P.verFed d s, { rsaHas o d true with finalized := true }) := by
          unfold RsaOp.verifyFinal
          rw [if_neg (by rw [show (rsaHas o d true).inUse = true from rfl]; decide), if_neg (by rw [hfin]; decide)]
          simp only [hctx, if_true]
          rfl
        rw [e, hw]
      rw [← this]
      rcases hk with hk | hk <;> subst hk <;> rfl
    rw [hrun]
    have := rsa_verify_said (sig := sig) (b := b) (o' := { rsaHas o d true with finalized := true }) F hs (may_hashed hp d.length).2 rfl
    rw [hp, if_neg (by decide)] at this
    exact this

/-- The check on the length of data. -/
theorem rsa_fits (h : RsaMade k mech n sig o) (hp : mech.plain = true) (x : Bytes) :
    (o.badData x = false ↔ maySign n mech x.length) ∧ (¬ o.maxInput < x.length ↔ mayVerify n mech x.length) := by
  have hm := h.max
  unfold RsaOp.badData
  rw [h.mech]
  cases mech with
  | x509 => injection hm with hm; subst hm; simp [maySign, mayVerify]
  | pkcs =>
    unfold rsaMaxLen at hm
    simp only at hm
    split at hm
    · cases hm
    · injection hm with hm
      rw [← hm]
      simp only [maySign, mayVerify, decide_eq_false_iff_not]
      omega
  | pss p => injection hm with hm; rw [← hm]; simp [maySign, mayVerify]
  | oaep p => cases hp
  | hashPkcs h => cases hp
  | hashPss h p => cases hp
  | other => cases hp

/-- All data at once. -/
theorem rsa_once (F : RsaFollows P mech.plain A n) (hk : k = .sign ∨ k = .verify ∨ k = .verifySig) (h : RsaMade k mech n sig o) (b : OpIn) (hg : macGate k n b = none) :
    macSaid k (rsaRun P k .oneShot (rsaHas o [] false) b).1 = rsaSaid k A n mech sig b.data b ∧ (rsaRun P k .oneShot (rsaHas o [] false) b).2.finalized = true := by
  have hfin : (rsaHas o [] false).finalized = false := h.final
  have hmech : (rsaHas o [] false).mech = mech := h.mech
  have hctx : (rsaHas o [] false).sigctx = true := h.ctx
  have hin : ¬ (rsaHas o [] false).inUse = true := by rw [show (rsaHas o [] false).inUse = false from rfl]; decide
  have hfn : ¬ (rsaHas o [] false).finalized = true := by rw [hfin]; decide
  cases hp : mech.plain with
  | false =>
    have hup : (rsaHas o [] false).update b.data = (.ok (), rsaHas o b.data true) := by
      rw [rsa_more (o := rsaHas o [] false) (by rw [hmech]; exact hp) hfin hctx]
      rfl
    have hpl : ¬ (rsaHas o [] false).mech.plain = true := by rw [hmech, hp]; decide
    have hrun : rsaRun P k .oneShot (rsaHas o [] false) b = rsaRun P k .final (rsaHas o b.data true) b := by
      rcases hk with hk | hk | hk <;> subst hk <;> unfold rsaRun <;>
        simp only [RsaOp.sign, RsaOp.verify, if_neg hin, if_neg hfn, if_neg hpl, hup] <;> rfl
    rw [hrun]
    exact rsa_end F hp hk h b.data b
  | true =>
    have hpl : (rsaHas o [] false).mech.plain = true := by rw [hmech, hp]
    obtain ⟨f1, f2⟩ := rsa_fits h hp b.data
    rcases hk with hk | hk
    · subst hk
      show macSaid .sign ((rsaHas o [] false).sign P b.data o.outputLen).1 = _ ∧ ((rsaHas o [] false).sign P b.data o.outputLen).2.finalized = true
      have e : (rsaHas o [] false).sign P b.data o.outputLen =
          if o.badData b.data then (.error .dataLenRange, { rsaHas o [] false with finalized := true })
          else match P.signLen b.data with
            | .error r => (.error r, { rsaHas o [] false with finalized := true })
            | .ok l => if l ≠ o.outputLen then (.error .generalError, { rsaHas o [] false with finalized := true })
              else match P.sign b.data with
                | .error r => (.error r, { rsaHas o [] false with finalized := true })
                | .ok s => (.ok s, { rsaHas o [] false with finalized := true }) := by
        unfold RsaOp.sign
        rw [if_neg hin, if_neg hfn, if_pos hpl]
        simp only [hctx, if_true]
        rw [if_neg (show ¬ o.outputLen ≠ (rsaHas o [] false).outputLen from fun h => h rfl)]
        rfl
      rw [e]
      unfold rsaSaid
      rw [if_pos rfl]
      by_cases hb : o.badData b.data = true
      · rw [if_pos hb, if_neg (fun hc => by rw [f1.2 hc] at hb; cases hb)]
        exact ⟨rfl, rfl⟩
      · rw [if_neg hb, if_pos (f1.1 (Bool.not_eq_true _ ▸ hb)), F.len]
        simp only
        rw [if_neg (show ¬ n ≠ o.outputLen from fun hc => hc h.len.symm)]
        cases hs : A.sign b.data with
        | none =>
          have := F.none _ hs
          rw [hp, if_pos rfl] at this
          rw [this]
          exact ⟨rfl, rfl⟩
        | some s =>
          obtain ⟨l1, l2⟩ := F.some _ s hs
          rw [hp, if_pos rfl] at l2
          rw [l2]
          exact ⟨rfl, rfl⟩
    · have hs : k ≠ .sign := by rcases hk with h | h <;> subst h <;> decide
      have hw := rsa_wanted h (b := b) hk (o' := { rsaHas o [] false with finalized := true }) rfl
      have hlen : ({ rsaHas o [] false with finalized := true } : RsaOp).badLen (if k = .verify then some b.sig else none) = false := by
        rcases hk with rfl | rfl
        · have := rsa_gate hg rfl
          show (b.sig.length != o.outputLen) = false
          rw [h.len, this]
          simp
        · rfl
      have e : (rsaHas o [] false).verify P b.data (if k = .verify then some b.sig else none) =
          if o.maxInput < b.data.length then (.error .dataLenRange, { rsaHas o [] false with finalized := true })
          else (P.ver b.data (if k = .verify then b.sig else sig), { rsaHas o [] false with finalized := true }) := by
        unfold RsaOp.verify
        rw [if_neg hin, if_neg hfn, if_pos hpl]
        show (if o.maxInput < b.data.length then _ else
          if ({ rsaHas o [] false with finalized := true } : RsaOp).badLen (if k = .verify then some b.sig else none) = true then _ else
          if (rsaHas o [] false).sigctx = true then _ else _) = _
        rw [hlen, if_neg (show ¬ false = true by decide), if_pos hctx, hw]
      have hrun : rsaRun P k .oneShot (rsaHas o [] false) b = rsaNothing ((rsaHas o [] false).verify P b.data (if k = .verify then some b.sig else none)) := by
        rcases hk with hk | hk <;> subst hk <;> rfl
      rw [hrun, e]
      by_cases hb : o.maxInput < b.data.length
      · rw [if_pos hb]
        unfold rsaSaid
        rw [if_neg hs, if_neg (fun hc => f2.2 hc hb)]
        exact ⟨rfl, rfl⟩
      · rw [if_neg hb]
        have := rsa_verify_said (sig := sig) (b := b) (o' := { rsaHas o [] false with finalized := true }) F hs (f2.1 hb) rfl
        rw [hp, if_pos rfl] at this
        exact this

theorem rsa_solo (hm : rsaSigns m = true) (hq : rsaMechOf m q = .ok mech) (F : RsaFollows P mech.plain A n) (hl : K.load mech key = some P)
    (hk : k = .sign ∨ k = .verify ∨ k = .verifySig) (h : RsaMade k mech n sig o) (e : Env) (a : Act) (b : OpIn) (s : Feeding) (v : Op) (hR : rsaIs m q key o s v) :
    (solo (withRsa M K) e k a b v).1 = (sigTalk k n (!mech.plain) false (rsaSaid k A n mech sig) s a b).1 ∧
    rsaIs m q key o (sigTalk k n (!mech.plain) false (rsaSaid k A n mech sig) s a b).2 (solo (withRsa M K) e k a b v).2 := by
  have hk' : rsaKind k = true := by rcases hk with h | h | h <;> subst h <;> rfl
  cases s with
  | ended =>
    obtain ⟨o', rfl, hf⟩ := hR
    unfold solo sigTalk
    by_cases hc : soloCall a
    · rw [if_pos hc, if_pos hc, if_pos (show (rsaOp m q key o').fin = true from hf)]
      exact ⟨rfl, o', rfl, hf⟩
    · rw [if_neg hc, if_neg hc]
      exact ⟨rfl, o', rfl, hf⟩
  | taking d u =>
    obtain ⟨rfl, hu, hru⟩ := hR
    have hmech : (rsaHas o d u).mech = mech := h.mech
    have hlen : ∀ a l, (lenOp (withRsa M K) k a (rsaOp m q key (rsaHas o d u)) l).1 = .ok n := by
      intro a l
      unfold lenOp withRsa
      simp only [show (rsaOp m q key (rsaHas o d u)).mech = m from rfl, hm, hk', and_self, if_true]
      unfold rsaLen
      rw [rsaOf_op (o := rsaHas o d u) (by rw [hmech]; exact hq) h.ctx h.enc]
      show Except.ok o.outputLen = _
      rw [h.len]
    rw [solo_sig hk (show (rsaHas o d u).finalized = false from h.final) hlen]
    unfold sigTalk
    by_cases hc : soloCall a
    case neg => rw [if_neg hc, if_neg hc]; exact ⟨rfl, rfl, hu, hru⟩
    rw [if_pos hc, if_pos hc]
    simp only
    by_cases ha : a = .update
    · rw [if_pos ha, if_pos ha]
      unfold soloFeed
      rw [run_rsa hm hk' hl hq hmech h.ctx h.enc]
      show (match (rsaNothing ((rsaHas o d u).update b.data)).1 with
        | .error r => Out.err r
        | .ok _ => .ok) = _ ∧ rsaIs m q key o _ (rsaOp m q key (rsaNothing ((rsaHas o d u).update b.data)).2)
      cases hp : mech.plain with
      | true =>
        have hu0 := hru (by rw [h.mech]; exact hp)
        rw [rsa_no (o := rsaHas o d u) (by rw [hmech]; exact hp) h.final hu0]
        exact ⟨rfl, rfl, hu, hru⟩
      | false =>
        rw [rsa_more (o := rsaHas o d u) (by rw [hmech]; exact hp) h.final h.ctx]
        exact ⟨rfl, rfl, nofun, fun hr => by rw [h.mech, hp] at hr; cases hr⟩
    rw [if_neg ha, if_neg ha]
    cases hg : macGate k n b with
    | some r => exact ⟨rfl, rfl, hu, hru⟩
    | none =>
      simp only
      rw [run_rsa hm hk' hl hq hmech h.ctx h.enc]
      by_cases h1 : a = .oneShot
      · subst h1
        rw [if_pos rfl]
        cases u with
        | true =>
          have hrun : rsaRun P k .oneShot (rsaHas o d true) b = (.error .operationNotInitialized, rsaHas o d true) := by
            rcases hk with hk | hk | hk <;> subst hk <;> rfl
          rw [hrun]
          exact ⟨rfl, rfl, nofun, hru⟩
        | false =>
          have := hu rfl; subst this
          obtain ⟨g1, g2⟩ := rsa_once F hk h b hg
          exact ⟨g1, _, rfl, g2⟩
      · rw [if_neg h1]
        have h2 : a = .final := by
          rcases hc with h | h | h
          · exact absurd h h1
          · exact absurd h ha
          · exact h
        subst h2
        cases u with
        | true =>
          cases hp : mech.plain with
          | true => have := hru (by rw [h.mech]; exact hp); cases this
          | false =>
            obtain ⟨g1, g2⟩ := rsa_end F hp hk h d b
            exact ⟨g1, _, rfl, g2⟩
        | false =>
          have hrun : rsaRun P k .final (rsaHas o d false) b = (.error .operationNotInitialized, rsaHas o d false) := by
            rcases hk with hk | hk | hk <;> subst hk <;> rfl
          rw [hrun]
          exact ⟨rfl, rfl, hu, hru⟩

end

/-! ## In the machine -/

theorem withRsa_stateless (hm : rsaSigns m = true) (hM : Stateless M m) : Stateless (withRsa M K) m where
  new := by
    intro e k q key sig op h
    unfold withRsa at h
    simp only [hm, if_true] at h
    split at h
    · split at h
      · unfold rsaStart at h
        repeat' split at h
        all_goals first | (cases h; done) | skip
        all_goals (injection h with h; subst h; rfl)
      · cases h
    · exact hM.new _ _ _ _ _ _ h
  run := by
    intro e k a op i hop hu
    show (if rsaSigns op.mech = true ∧ rsaKind k = true then _ else _ : Res Bytes × Op).2.upd = none
    by_cases hk : rsaKind k = true
    · rw [if_pos ⟨hop ▸ hm, hk⟩]
      unfold rsaDo
      repeat' split
      all_goals first | exact hu | rfl
    · rw [if_neg (fun h => hk h.2)]
      exact hM.run _ _ _ _ _ hop hu
  len := by
    intro k a op n hop hu
    show (if rsaSigns op.mech = true ∧ rsaKind k = true then _ else _ : Res Nat × Op).2.upd = none
    by_cases hk : rsaKind k = true
    · rw [if_pos ⟨hop ▸ hm, hk⟩]
      exact hu
    · rw [if_neg (fun h => hk h.2)]
      exact hM.len _ _ _ _ hop hu

/-- The attributes that were read. -/
theorem rsaKey_is {key : RsaKey} {x : Obj} (h : rsaKeyIs k key x) : rsaKeyOf (decide (k = .sign)) x = .ok key := by
  obtain ⟨h1, h2, h3, h4, h5⟩ := h
  obtain ⟨pr, n, e, d, crt⟩ := key
  simp only at h1 h2 h3 h4 h5
  unfold rsaKeyOf
  rw [h1]
  simp only
  rw [h2]
  simp only
  by_cases hs : k = .sign
  · obtain ⟨h6, h7⟩ := h4 hs
    rw [if_pos (by rw [hs]; rfl), h6, h3.2 hs, h7]
  · obtain ⟨h6, h7⟩ := h5 hs
    rw [if_neg (by rw [decide_eq_false hs]; decide), h6, h7]
    have : pr = false := by
      cases pr with
      | true => exact absurd (h3.1 rfl) hs
      | false => rfl
    rw [this]

/-- A successful start. -/
theorem rsa_started {e : Env} {q sig : Bytes} {key : RsaKey} {x : Obj} {op : Op} {P : RsaPrims} {mech : RsaMech} (hm : rsaSigns m = true)
    (hk : k = .sign ∨ k = .verify ∨ k = .verifySig) (hv : rsaKeyIs k key x) (hq : rsaMechOf m q = .ok mech) (hl : K.load mech key = some P)
    (h : newOp (withRsa M K) e k m q (some x) sig = .ok op) :
    ∃ o, RsaOp.sigverNew 1024 16384 mech key.n (givenFor k sig) = .ok o ∧ op = rsaOp m q key o := by
  have hk' : rsaKind k = true := by rcases hk with h | h | h <;> subst h <;> rfl
  unfold newOp at h
  simp only at h
  split at h
  · cases h
  · cases hn : (withRsa M K).new e k m q (some x) sig with
    | error r => rw [hn] at h; cases h
    | ok o' =>
      rw [hn] at h
      injection h with h
      unfold withRsa at hn
      simp only [hm, hk', if_true] at hn
      unfold rsaStart at hn
      rw [hq] at hn
      simp only at hn
      cases hp : rsaSigParams mech with
      | error r => rw [hp] at hn; cases hn
      | ok pp =>
        rw [hp] at hn
        simp only at hn
        rw [rsaKey_is hv] at hn
        simp only [hl] at hn
        cases ho : RsaOp.sigverNew 1024 16384 mech key.n (if k = .verifySig then some sig else none) with
        | error r => rw [ho] at hn; cases hn
        | ok o =>
          rw [ho] at hn
          injection hn with hn
          refine ⟨o, ho, ?_⟩
          rw [← h, ← hn]
          have hf := (rsa_made (k := k) (sig := sig) ho).final
          unfold rsaOp
          rw [hf]

variable {d : List (Nat × Db)} {tr tr2 : Trace} {e : Env} {h i key : Nat} {q sig : Bytes} {Y X : List ((Act × OpIn) × Out)} {b : OpIn} {r : Out} {a : Act}
variable {A : RsaCore} {kd : RsaKey} {P : RsaPrims} {mech : RsaMech}

/-- What the user of an RSA mechanism sees. -/
theorem C90_talk (hM : Stateless M m) (hm : rsaSigns m = true) (hq : rsaMechOf m q = .ok mech) (hk : k = .sign ∨ k = .verify ∨ k = .verifySig) (hl : K.load mech kd = some P)
    (F : RsaFollows P mech.plain A kd.n.length) (hX : Went (withRsa M K) C O d tr e h i k m q key sig (rsaKeyIs k kd) tr2 X) :
    X.map (·.2) = (describe (sigTalk k kd.n.length (!mech.plain) false (rsaSaid k A kd.n.length mech sig)) (.taking [] false) (X.map (·.1))).1 := by
  have hmm : manyMessages k = false := by rcases hk with h | h | h <;> subst h <;> rfl
  have hd : k ≠ .digest := by rcases hk with h | h | h <;> subst h <;> decide
  have hs := withRsa_stateless (K := K) hm hM
  obtain ⟨x, op, hx, hn⟩ := went_new hs hd hX
  obtain ⟨o, ho, -⟩ := rsa_started hm hk hx hq hl hn
  have hmade := rsa_made ho
  refine went_sim (R := rsaIs m q kd o) hs hmm hd hX ?_ (rsa_solo hm hq F hl hk hmade) ?_
  · intro s w hw
    cases s with
    | taking d u => obtain ⟨rfl, -⟩ := hw; exact ⟨rfl, rfl⟩
    | ended => obtain ⟨o', rfl, -⟩ := hw; exact ⟨rfl, rfl⟩
  · intro x' op' hx' hn'
    obtain ⟨o2, ho2, rfl⟩ := rsa_started hm hk hx' hq hl hn'
    rw [ho] at ho2
    injection ho2 with ho2
    subst ho2
    exact ⟨by rw [← hmade.same], fun _ => rfl, fun _ => rfl⟩

/-- **C90**: what C_Sign or C_SignFinal gives out is OpenSSL's signature of the data, or of the parts accepted; it has the length of the modulus, and the data fit the padding. -/
theorem C90_signed {x : Bytes} (hM : Stateless M m) (hm : rsaSigns m = true) (hq : rsaMechOf m q = .ok mech) (hl : K.load mech kd = some P) (F : RsaFollows P mech.plain A kd.n.length)
    (hX : Went (withRsa M K) C O d tr e h i .sign m q key sig (rsaKeyIs .sign kd) tr2 (Y ++ [((a, b), .bytes x)])) :
    A.sign (aboutMsg Y a b) = some x ∧ x.length = kd.n.length ∧ maySign kd.n.length mech (aboutMsg Y a b).length := by
  have t := C90_talk hM hm hq (.inl rfl) hl F hX
  have hu : a ≠ .update := by
    rintro rfl
    obtain ⟨-, y2⟩ := describe_last t
    revert y2
    show Out.bytes x = (sigTalk _ _ _ _ _ _ .update b).1 → False
    unfold sigTalk
    split
    · split
      · nofun
      · rw [if_pos rfl]; split <;> nofun
    · nofun
  obtain ⟨h1, -⟩ := sigTalk_result (fun _ _ => rsaSaid_on) t hu (fun z => z)
  unfold rsaSaid at h1
  rw [if_pos rfl] at h1
  by_cases hf : maySign kd.n.length mech (aboutMsg Y a b).length
  · rw [if_pos hf] at h1
    cases hs : A.sign (aboutMsg Y a b) with
    | none => rw [hs] at h1; cases h1
    | some z => rw [hs] at h1; injection h1 with h1; subst h1; exact ⟨rfl, (F.some _ _ hs).1, hf⟩
  · rw [if_neg hf] at h1; cases h1

/-- **C90**: what a verification accepts, OpenSSL accepts: the signature of the call, or that of C_VerifySignatureInit, for the data, or for the parts accepted. -/
theorem C90_verified (hM : Stateless M m) (hm : rsaSigns m = true) (hq : rsaMechOf m q = .ok mech) (hk : k = .verify ∨ k = .verifySig) (hu : a ≠ .update) (hl : K.load mech kd = some P)
    (F : RsaFollows P mech.plain A kd.n.length) (hX : Went (withRsa M K) C O d tr e h i k m q key sig (rsaKeyIs k kd) tr2 (Y ++ [((a, b), .ok)])) :
    A.ver (aboutMsg Y a b) (if k = .verify then b.sig else sig) = true ∧ (k = .verify → b.sig.length = kd.n.length) ∧ mayVerify kd.n.length mech (aboutMsg Y a b).length := by
  have hs : k ≠ .sign := by rcases hk with h | h <;> subst h <;> decide
  have t := C90_talk hM hm hq (.inr hk) hl F hX
  obtain ⟨h1, h2⟩ := sigTalk_result (fun _ _ => rsaSaid_on) t hu (fun z => z)
  unfold rsaSaid at h1
  rw [if_neg hs] at h1
  by_cases hf : mayVerify kd.n.length mech (aboutMsg Y a b).length
  · rw [if_pos hf] at h1
    cases hv : A.ver (aboutMsg Y a b) (if k = .verify then b.sig else sig) with
    | true => exact ⟨rfl, fun hv => rsa_gate h2 hv, hf⟩
    | false => rw [hv] at h1; cases h1
  · rw [if_neg hf] at h1; cases h1

theorem rsa_open {room n : Nat} (ho : b.out = some room) (hr : n ≤ room) : macGate .sign n b = none := by
  unfold macGate
  rw [if_pos rfl, ho]
  simp only
  rw [if_neg (by omega)]

theorem rsa_open' {n : Nat} (hs : k ≠ .sign) (ho : k = .verify → b.sig.length = n) : macGate k n b = none := by
  unfold macGate
  rw [if_neg hs]
  split
  · rename_i hv; rw [ho hv]; simp
  · rfl

/-- **C90**: a signature that OpenSSL makes is given out, if the data fit the padding and the buffer is large enough. -/
theorem C90_gives {room : Nat} {z : Bytes} (hM : Stateless M m) (hm : rsaSigns m = true) (hq : rsaMechOf m q = .ok mech) (hl : K.load mech kd = some P)
    (F : RsaFollows P mech.plain A kd.n.length) (hX : Went (withRsa M K) C O d tr e h i .sign m q key sig (rsaKeyIs .sign kd) tr2 (Y ++ [((a, b), r)]))
    (ha : comesToEndStill Y a) (ho : b.out = some room) (hr : kd.n.length ≤ room) (hf : maySign kd.n.length mech (aboutMsg Y a b).length) (hz : A.sign (aboutMsg Y a b) = some z) :
    r = .bytes z := by
  have t := C90_talk hM hm hq (.inl rfl) hl F hX
  rw [sigTalk_ends_all (fun _ _ => rsaSaid_on) t ha nofun (rsa_open ho hr)]
  unfold rsaSaid
  rw [if_pos rfl, if_pos hf, hz]

/-- **C90**: data that do not fit the padding of CKM_RSA_X_509, CKM_RSA_PKCS or CKM_RSA_PKCS_PSS are not signed. -/
theorem C90_range {room : Nat} (hM : Stateless M m) (hm : rsaSigns m = true) (hq : rsaMechOf m q = .ok mech) (hl : K.load mech kd = some P)
    (F : RsaFollows P mech.plain A kd.n.length) (hX : Went (withRsa M K) C O d tr e h i .sign m q key sig (rsaKeyIs .sign kd) tr2 (Y ++ [((a, b), r)]))
    (ha : comesToEndStill Y a) (ho : b.out = some room) (hr : kd.n.length ≤ room) (hf : ¬ maySign kd.n.length mech (aboutMsg Y a b).length) : r = .err .dataLenRange := by
  have t := C90_talk hM hm hq (.inl rfl) hl F hX
  rw [sigTalk_ends_all (fun _ _ => rsaSaid_on) t ha nofun (rsa_open ho hr)]
  unfold rsaSaid
  rw [if_pos rfl, if_neg hf]

/-- **C90**: what a verification answers.  Missing for the full statement: a signature that is not accepted should be answered with CKR_SIGNATURE_INVALID (`C90_invalid_violation`). -/
theorem C90_verdict_partial (hM : Stateless M m) (hm : rsaSigns m = true) (hq : rsaMechOf m q = .ok mech) (hk : k = .verify ∨ k = .verifySig) (hl : K.load mech kd = some P)
    (F : RsaFollows P mech.plain A kd.n.length) (hX : Went (withRsa M K) C O d tr e h i k m q key sig (rsaKeyIs k kd) tr2 (Y ++ [((a, b), r)]))
    (ha : comesToEndStill Y a) (ho : k = .verify → b.sig.length = kd.n.length) :
    r = if mayVerify kd.n.length mech (aboutMsg Y a b).length then if A.ver (aboutMsg Y a b) (if k = .verify then b.sig else sig) then .ok else .err .deviceError
      else .err .dataLenRange := by
  have hs : k ≠ .sign := by rcases hk with h | h <;> subst h <;> decide
  have t := C90_talk hM hm hq (.inr hk) hl F hX
  rw [sigTalk_ends_all (fun _ _ => rsaSaid_on) t ha nofun (rsa_open' hs ho)]
  unfold rsaSaid
  rw [if_neg hs]

theorem may_both {n l : Nat} (h : maySign n mech l) : mayVerify n mech l := by
  unfold mayVerify
  split
  · unfold maySign at h; simp only at h; omega
  · exact h

/-- **C90**: a signature made with the private key through one session is accepted with the public key through any other, of this or another token, however the message is cut. -/
theorem C90_roundtrip {C' : Crypto} {O' : Oracle} {M' : Mechs} {d' : List (Nat × Db)} {tr' tr2' : Trace} {e' : Env} {h' i' key' : Nat} {q' sig' x : Bytes} {kd' : RsaKey}
    {Y' : List ((Act × OpIn) × Out)} {a' : Act} {b' : OpIn} {P' : RsaPrims} (law : ∀ x s, A.sign x = some s → A.ver x s = true)
    (hM : Stateless M m) (hM' : Stateless M' m) (hm : rsaSigns m = true) (hq : rsaMechOf m q = .ok mech) (hq' : rsaMechOf m q' = .ok mech)
    (hl : K.load mech kd = some P) (F : RsaFollows P mech.plain A kd.n.length) (hl' : K.load mech kd' = some P') (F' : RsaFollows P' mech.plain A kd'.n.length) (hn : kd'.n = kd.n)
    (hX : Went (withRsa M K) C O d tr e h i .sign m q key sig (rsaKeyIs .sign kd) tr2 (Y ++ [((a, b), .bytes x)])) (hk : k = .verify ∨ k = .verifySig)
    (hX' : Went (withRsa M' K) C' O' d' tr' e' h' i' k m q' key' sig' (rsaKeyIs k kd') tr2' (Y' ++ [((a', b'), r)])) (ha : comesToEndStill Y' a')
    (hmsg : aboutMsg Y' a' b' = aboutMsg Y a b) (hs : (if k = .verify then b'.sig else sig') = x) : r = .ok := by
  obtain ⟨h1, h2, h3⟩ := C90_signed hM hm hq hl F hX
  rw [C90_verdict_partial hM' hm hq' hk hl' F' hX' ha ?_, hmsg, hs, hn, if_pos (may_both h3), law _ _ h1, if_pos rfl]
  intro hv
  rw [if_pos hv] at hs
  rw [hs, h2, hn]

/-- **C90**: CKM_RSA_X_509, CKM_RSA_PKCS and CKM_RSA_PKCS_PSS take no parts, and give a result for C_Sign, C_Verify and C_VerifySignature only; by `C90_gives` and `C90_verdict_partial`
they still do after parts that were refused. -/
theorem C90_whole (hM : Stateless M m) (hm : unhashed m) (hq : rsaMechOf m q = .ok mech) (hk : k = .sign ∨ k = .verify ∨ k = .verifySig) (hl : K.load mech kd = some P)
    (F : RsaFollows P mech.plain A kd.n.length) (hX : Went (withRsa M K) C O d tr e h i k m q key sig (rsaKeyIs k kd) tr2 (Y ++ [((a, b), r)])) (ha : a ≠ .oneShot) :
    r ≠ .ok ∧ (∀ x, r ≠ .bytes x) ∧ ¬ acceptedPart Y := by
  have hm' : rsaSigns m = true := by rcases hm with h | h | h <;> subst h <;> rfl
  have hp : mech.plain = true := by
    rcases hm with h | h | h <;> subst h <;> unfold rsaMechOf at hq
    · rw [if_pos rfl] at hq; injection hq with hq; subst hq; rfl
    · rw [if_neg (by decide), if_pos rfl] at hq; injection hq with hq; subst hq; rfl
    · rw [if_neg (by decide), if_neg (by decide), if_pos rfl] at hq
      split at hq
      · cases hq
      · split at hq
        · injection hq with hq; subst hq; rfl
        · cases hq
  have t := C90_talk hM hm' hq hk hl F hX
  rw [hp] at t
  obtain ⟨y1, y2⟩ := describe_last t
  change r = (sigTalk k _ _ _ _ _ a b).1 at y2
  obtain ⟨g0, g⟩ := sigTalk_run (fun _ _ => rsaSaid_on) Y [] false y1
  have hno : ¬ acceptedPart Y := fun hc => by have := g0 hc; cases this
  generalize (describe (sigTalk k kd.n.length (!true) false (rsaSaid k A kd.n.length mech sig)) (.taking [] false) (Y.map (·.1))).2 = st at y2 g
  subst y2
  suffices h : ∀ r, r = (sigTalk k kd.n.length (!true) false (rsaSaid k A kd.n.length mech sig) st a b).1 → r ≠ .ok ∧ ∀ x, r ≠ .bytes x from
    ⟨(h _ rfl).1, (h _ rfl).2, hno⟩
  intro r hr
  unfold sigTalk at hr
  by_cases hc : soloCall a
  case neg => rw [if_neg hc] at hr; subst hr; exact ⟨nofun, nofun⟩
  rw [if_pos hc] at hr
  rcases g with ⟨u', rfl, g1, -⟩ | ⟨rfl, -⟩
  case inr => subst hr; exact ⟨nofun, nofun⟩
  have := g1 rfl hno
  subst this
  simp only at hr
  by_cases hu : a = .update
  · rw [if_pos hu] at hr; subst hr; exact ⟨nofun, nofun⟩
  · rw [if_neg hu] at hr
    cases hg : macGate k kd.n.length b with
    | some r' =>
      rw [hg] at hr
      simp only at hr
      subst hr
      have := gate_on hg
      constructor
      · rintro rfl; exact this
      · rintro x rfl; exact this
    | none => rw [hg] at hr; simp only [if_neg ha] at hr; subst hr; exact ⟨nofun, nofun⟩

/-! ## A case -/

/-- A toy in the place of OpenSSL: 127 bytes 0x11 and the sum of the bytes; nothing signs the empty message. -/
def rsaToySig (x : Bytes) : Bytes := List.replicate 127 0x11 ++ [x.foldl (· + ·) 0]

def rsaToyCore : RsaCore := ⟨fun x => if x = [] then none else some (rsaToySig x), fun x s => decide (s = rsaToySig x)⟩

def rsaToySign (x : Bytes) : Res Bytes := if x = [] then .error .deviceError else .ok (rsaToySig x)

def rsaToyVer (x s : Bytes) : Res Unit := if s = rsaToySig x then .ok () else .error .deviceError

def rsaToyPrims : RsaPrims := ⟨fun _ => .ok 128, fun _ => .error .deviceError, fun _ => .ok 128, fun _ => .error .deviceError, fun _ => .ok 128, rsaToySign, rsaToySign, rsaToyVer, rsaToyVer⟩

theorem rsaToy_follows (plain : Bool) : RsaFollows rsaToyPrims plain rsaToyCore 128 := by
  have e1 : (if plain then rsaToyPrims.sign else rsaToyPrims.signFed) = rsaToySign := by cases plain <;> rfl
  have e2 : (if plain then rsaToyPrims.ver else rsaToyPrims.verFed) = rsaToyVer := by cases plain <;> rfl
  refine ⟨fun _ => rfl, fun x s h => ?_, fun x h => ?_, fun x s => ?_⟩
  · rw [e1]
    unfold rsaToyCore at h
    simp only at h
    split at h
    · cases h
    · rename_i hx
      injection h with h
      subst h
      refine ⟨?_, by unfold rsaToySign; rw [if_neg hx]⟩
      unfold rsaToySig
      rw [List.length_append, List.length_replicate]
      rfl
  · rw [e1]
    unfold rsaToyCore at h
    simp only at h
    split at h
    · rename_i hx; unfold rsaToySign; rw [if_pos hx]
    · cases h
  · rw [e2]
    unfold rsaToyVer rsaToyCore
    by_cases hc : s = rsaToySig x
    · rw [if_pos hc, if_pos (decide_eq_true hc)]
    · rw [if_neg hc, if_neg (fun h => hc (of_decide_eq_true h))]

/-- Every key is a key of the toy algorithm. -/
def exRsK : RsaKeys := ⟨fun _ _ => some rsaToyPrims⟩

abbrev exRsM : Mechs := withRsa exMechs exRsK

/-- A modulus of 1024 bits. -/
def exRsN : Bytes := List.replicate 128 0xc1

/-- A private key, a public key and two sessions. -/
def exRsStart : Trace :=
  [(exEnv 0, .initialize [(7, ⟨[CKM_RSA_PKCS, CKM_SHA256_RSA_PKCS], none, none⟩)]), (exEnv 1, .initToken 7 exSoPin none),
   (exEnv 2, .openSession 7 (CKF_RW_SESSION ||| CKF_SERIAL_SESSION)),
   (exEnv 3, .login 1 CKU_SO exSoPin), (exEnv 4, .sess 1 (.initPin exPin)), (exEnv 5, .logout 1), (exEnv 6, .login 1 CKU_USER exPin),
   (exEnv 7, .sess 1 (.createObject [.ofUlong CKA_CLASS CKO_PRIVATE_KEY, .ofUlong CKA_KEY_TYPE CKK_RSA,
     .mk' CKA_MODULUS exRsN, .mk' CKA_PUBLIC_EXPONENT [1, 0, 1], .mk' CKA_PRIVATE_EXPONENT [7, 7], .ofBool CKA_SIGN true])),
   (exEnv 8, .sess 1 (.createObject [.ofUlong CKA_CLASS CKO_PUBLIC_KEY, .ofUlong CKA_KEY_TYPE CKK_RSA,
     .mk' CKA_MODULUS exRsN, .mk' CKA_PUBLIC_EXPONENT [1, 0, 1], .ofBool CKA_VERIFY true])),
   (exEnv 9, .openSession 7 (CKF_RW_SESSION ||| CKF_SERIAL_SESSION))]

abbrev exRsSt : St := after exRsM exCrypto exOracle [] exRsStart
def exRsPriv : Obj := (readAt exCrypto exRsSt 7 8).getD (Obj.new 0)

/-- Signature of 5 bytes in two parts, with a signature on the other session, a query and a short buffer in between. -/
def exRsTr : Trace :=
  [(exEnv 11, .op 1 (.opRun .sign .update (exSIn [9, 9, 9] [] none))),
   (exEnv 12, .op 2 (.opInit .sign (some (CKM_RSA_PKCS, [])) 8 [])),
   (exEnv 13, .op 2 (.opRun .sign .oneShot (exSIn [5, 5] [] (some 128)))),
   (exEnv 14, .op 1 (.opRun .sign .final (exSIn [] [] none))),
   (exEnv 15, .op 1 (.opRun .sign .final (exSIn [] [] (some 127)))),
   (exEnv 16, .op 1 (.opRun .sign .oneShot (exSIn [1] [] (some 128)))),
   (exEnv 17, .op 1 (.opRun .sign .update (exSIn [4, 4] [] none))),
   (exEnv 18, .op 1 (.opRun .sign .final (exSIn [] [] (some 128))))]

abbrev exRsStart' : Trace := exRsStart ++ (exEnv 10, .op 1 (.opInit .sign (some (CKM_SHA256_RSA_PKCS, [])) 8 [])) :: exRsTr
abbrev exRsSt' : St := after exRsM exCrypto exOracle [] exRsStart'
def exRsPub : Obj := (readAt exCrypto exRsSt' 7 9).getD (Obj.new 0)

/-- The signature. -/
def exRsSigned : Bytes := List.replicate 127 0x11 ++ [35]

def exRsTr' : Trace :=
  [(exEnv 21, .op 2 (.opRun .verify .oneShot (exSIn [9, 9, 9, 4, 4] [1] none))), (exEnv 22, .sess 2 (.findInit [])),
   (exEnv 23, .op 2 (.opRun .verify .oneShot (exSIn [9, 9, 9, 4, 4] exRsSigned none)))]

/-- The keys as they were given to OpenSSL. -/
def exRsKey (k : OpKind) : RsaKey := if k = .sign then ⟨true, exRsN, [1, 0, 1], [7, 7], [none, none, none, none, none]⟩ else ⟨false, exRsN, [1, 0, 1], [], []⟩

/-- The exchange before C_SignFinal. -/
def exRsY : List ((Act × OpIn) × Out) :=
  [((.update, exSIn [9, 9, 9] [] none), .ok), ((.final, exSIn [] [] none), .size 128), ((.final, exSIn [] [] (some 127)), .err .bufferTooSmall),
   ((.oneShot, exSIn [1] [] (some 128)), .err .operationNotInitialized), ((.update, exSIn [4, 4] [] none), .ok)]

/-- A signature of a wrong length does not end it. -/
def exRsY' : List ((Act × OpIn) × Out) := [((.oneShot, exSIn [9, 9, 9, 4, 4] [1] none), .err .signatureLenRange)]

instance (k : OpKind) (key : RsaKey) (o : Obj) : Decidable (rsaKeyIs k key o) := by unfold rsaKeyIs; infer_instance

set_option maxRecDepth 20000 in
/-- `C90_signed` and `C90_gives` apply. -/
theorem exRs_signed : Went exRsM exCrypto exOracle [] exRsStart (exEnv 10) 1 7 .sign CKM_SHA256_RSA_PKCS [] 8 [] (rsaKeyIs .sign (exRsKey .sign)) exRsTr
    (exRsY ++ [((.final, exSIn [] [] (some 128)), .bytes exRsSigned)]) where
  there := ⟨exEnv 0, .rwUser, CKF_RW_SESSION ||| CKF_SERIAL_SESSION, by decide +kernel⟩
  value := seen_read (o := exRsPriv) (by decide +kernel) (by decide +kernel)
  calm := fun _ => seen_read (o := exRsPriv) (by decide +kernel) (by decide +kernel)
  started := by decide +kernel
  quiet := by
    have : exRsTr.all (fun p => meddles 1 .sign p.2 == false) = true := by decide +kernel
    exact fun p hp => eq_of_beq (List.all_eq_true.1 this p hp)
  same := noOpen_of (by decide +kernel)
  still := ⟨7, exEnv 0, .rwUser, CKF_RW_SESSION ||| CKF_SERIAL_SESSION, by decide +kernel⟩
  exchange := by decide +kernel

example : rsaToyCore.sign [9, 9, 9, 4, 4] = some exRsSigned ∧ exRsSigned.length = 128 ∧ maySign 128 (.hashPkcs .sha256) 5 :=
  C90_signed (A := rsaToyCore) (exMechs_stateless _) (by decide) (mech := .hashPkcs .sha256) rfl rfl (rsaToy_follows _) exRs_signed

set_option maxRecDepth 20000 in
/-- Later, on the other session: verification in one call.  `C90_verified`, `C90_verdict_partial` and `C90_roundtrip` apply. -/
theorem exRs_verified : Went exRsM exCrypto exOracle [] exRsStart' (exEnv 20) 2 7 .verify CKM_SHA256_RSA_PKCS [] 9 [] (rsaKeyIs .verify (exRsKey .verify)) exRsTr'
    (exRsY' ++ [((.oneShot, exSIn [9, 9, 9, 4, 4] exRsSigned none), .ok)]) where
  there := ⟨exEnv 0, .rwUser, CKF_RW_SESSION ||| CKF_SERIAL_SESSION, by decide +kernel⟩
  value := seen_read (o := exRsPub) (by decide +kernel) (by decide +kernel)
  calm := nofun
  started := by decide +kernel
  quiet := by
    have : exRsTr'.all (fun p => meddles 2 .verify p.2 == false) = true := by decide +kernel
    exact fun p hp => eq_of_beq (List.all_eq_true.1 this p hp)
  same := noOpen_of (by decide +kernel)
  still := ⟨7, exEnv 0, .rwUser, CKF_RW_SESSION ||| CKF_SERIAL_SESSION, by decide +kernel⟩
  exchange := by decide +kernel

theorem exRs_comes : comesToEndStill exRsY .final ∧ comesToEndStill exRsY' .oneShot := by
  refine ⟨⟨?_, .inr ⟨rfl, _, List.mem_cons_self, rfl, rfl⟩⟩, ⟨?_, .inl ⟨rfl, ?_⟩⟩⟩
  · intro p hp
    simp only [exRsY, List.mem_cons, List.mem_nil_iff, or_false] at hp
    rcases hp with rfl | rfl | rfl | rfl | rfl <;> simp [goesOn]
  · intro p hp
    simp only [exRsY', List.mem_cons, List.mem_nil_iff, or_false] at hp
    subst hp; simp [goesOn]
  · rintro ⟨p, hp, hu, -⟩
    simp only [exRsY', List.mem_cons, List.mem_nil_iff, or_false] at hp
    subst hp; cases hu

example : Out.ok = .ok :=
  C90_roundtrip (A := rsaToyCore) (kd := exRsKey .sign) (kd' := exRsKey .verify) (Y := exRsY) (Y' := exRsY') (b := exSIn [] [] (some 128)) (x := exRsSigned)
    (b' := exSIn [9, 9, 9, 4, 4] exRsSigned none) (sig' := []) (mech := .hashPkcs .sha256) (fun x s h => by unfold rsaToyCore at h ⊢; simp only at h ⊢; split at h <;> simp_all)
    (exMechs_stateless _) (exMechs_stateless _) (by decide) rfl rfl rfl (rsaToy_follows _) rfl (rsaToy_follows _) rfl exRs_signed (.inl rfl) exRs_verified exRs_comes.2 rfl (if_pos rfl)

/-- CKM_RSA_PKCS: a part is refused, then data of 118 bytes, one too many for a modulus of 128. -/
def exRsTrW : Trace :=
  [(exEnv 11, .op 1 (.opRun .sign .update (exSIn [9, 9, 9] [] none))), (exEnv 12, .op 1 (.opRun .sign .oneShot (exSIn (List.replicate 118 3) [] (some 128))))]

/-- The part. -/
def exRsYW : List ((Act × OpIn) × Out) := [((.update, exSIn [9, 9, 9] [] none), .err .operationNotInitialized)]

set_option maxRecDepth 20000 in
/-- `C90_range` applies. -/
theorem exRs_range : Went exRsM exCrypto exOracle [] exRsStart (exEnv 10) 1 7 .sign CKM_RSA_PKCS [] 8 [] (rsaKeyIs .sign (exRsKey .sign)) exRsTrW
    (exRsYW ++ [((.oneShot, exSIn (List.replicate 118 3) [] (some 128)), .err .dataLenRange)]) where
  there := ⟨exEnv 0, .rwUser, CKF_RW_SESSION ||| CKF_SERIAL_SESSION, by decide +kernel⟩
  value := seen_read (o := exRsPriv) (by decide +kernel) (by decide +kernel)
  calm := fun _ => seen_read (o := exRsPriv) (by decide +kernel) (by decide +kernel)
  started := by decide +kernel
  quiet := by
    have : exRsTrW.all (fun p => meddles 1 .sign p.2 == false) = true := by decide +kernel
    exact fun p hp => eq_of_beq (List.all_eq_true.1 this p hp)
  same := noOpen_of (by decide +kernel)
  still := ⟨7, exEnv 0, .rwUser, CKF_RW_SESSION ||| CKF_SERIAL_SESSION, by decide +kernel⟩
  exchange := by decide +kernel

theorem exRs_comesW : comesToEndStill exRsYW .oneShot := by
  refine ⟨?_, .inl ⟨rfl, ?_⟩⟩
  · intro p hp
    simp only [exRsYW, List.mem_cons, List.mem_nil_iff, or_false] at hp
    subst hp; simp [goesOn]
  · rintro ⟨p, hp, -, hu⟩
    simp only [exRsYW, List.mem_cons, List.mem_nil_iff, or_false] at hp
    subst hp; cases hu

example : Out.err .dataLenRange = .err .dataLenRange :=
  C90_range (A := rsaToyCore) (mech := .pkcs) (exMechs_stateless _) (by decide) rfl rfl (rsaToy_follows _) exRs_range exRs_comesW rfl (by decide +kernel) (by decide +kernel)

/-- CKM_RSA_PKCS: a part is refused, the data are signed. -/
def exRsTrS : Trace :=
  [(exEnv 11, .op 1 (.opRun .sign .update (exSIn [9, 9, 9] [] none))), (exEnv 12, .op 1 (.opRun .sign .oneShot (exSIn [30, 5] [] (some 128))))]

set_option maxRecDepth 20000 in
/-- `C90_gives` applies after a part that was refused, `C90_whole` to the part. -/
theorem exRs_whole : Went exRsM exCrypto exOracle [] exRsStart (exEnv 10) 1 7 .sign CKM_RSA_PKCS [] 8 [] (rsaKeyIs .sign (exRsKey .sign)) exRsTrS
    (exRsYW ++ [((.oneShot, exSIn [30, 5] [] (some 128)), .bytes exRsSigned)]) where
  there := ⟨exEnv 0, .rwUser, CKF_RW_SESSION ||| CKF_SERIAL_SESSION, by decide +kernel⟩
  value := seen_read (o := exRsPriv) (by decide +kernel) (by decide +kernel)
  calm := fun _ => seen_read (o := exRsPriv) (by decide +kernel) (by decide +kernel)
  started := by decide +kernel
  quiet := by
    have : exRsTrS.all (fun p => meddles 1 .sign p.2 == false) = true := by decide +kernel
    exact fun p hp => eq_of_beq (List.all_eq_true.1 this p hp)
  same := noOpen_of (by decide +kernel)
  still := ⟨7, exEnv 0, .rwUser, CKF_RW_SESSION ||| CKF_SERIAL_SESSION, by decide +kernel⟩
  exchange := by decide +kernel

example : Out.bytes exRsSigned = .bytes exRsSigned :=
  C90_gives (A := rsaToyCore) (mech := .pkcs) (exMechs_stateless _) (by decide) rfl rfl (rsaToy_follows _) exRs_whole exRs_comesW rfl (by decide +kernel) (by decide +kernel) (by decide +kernel)

/-- A signature of another message. -/
def exRsTrV : Trace := [(exEnv 21, .op 2 (.opRun .verify .oneShot (exSIn [9, 9, 9, 4, 5] exRsSigned none)))]

set_option maxRecDepth 20000 in
/-- **C90**: a signature that OpenSSL does not accept is answered with CKR_DEVICE_ERROR, not with CKR_SIGNATURE_INVALID (`src/error.rs:275-284`): an application cannot tell a forged
signature from a failing token. -/
theorem C90_invalid_violation : rsaToyCore.ver [9, 9, 9, 4, 5] exRsSigned = false ∧
    Went exRsM exCrypto exOracle [] exRsStart' (exEnv 20) 2 7 .verify CKM_SHA256_RSA_PKCS [] 9 [] (rsaKeyIs .verify (exRsKey .verify)) exRsTrV
      [((.oneShot, exSIn [9, 9, 9, 4, 5] exRsSigned none), .err .deviceError)] where
  left := by decide +kernel
  right := {
    there := ⟨exEnv 0, .rwUser, CKF_RW_SESSION ||| CKF_SERIAL_SESSION, by decide +kernel⟩
    value := seen_read (o := exRsPub) (by decide +kernel) (by decide +kernel)
    calm := nofun
    started := by decide +kernel
    quiet := by
      have : exRsTrV.all (fun p => meddles 2 .verify p.2 == false) = true := by decide +kernel
      exact fun p hp => eq_of_beq (List.all_eq_true.1 this p hp)
    same := noOpen_of (by decide +kernel)
    still := ⟨7, exEnv 0, .rwUser, CKF_RW_SESSION ||| CKF_SERIAL_SESSION, by decide +kernel⟩
    exchange := by decide +kernel }

end Kry
