import Verif.Props.C87
import Verif.Props.C88
import Verif.Props.C89
import Verif.Props.C90
import Verif.Props.C91

/-!
# C92: what may be given to the start of a signature or verification

Where C_SignInit, C_VerifyInit or C_VerifySignatureInit succeeds with a mechanism and a key, the answer for any other parameter and any other signature is known.

* `C92_mac`: AES-MAC and CMAC.
* `C92_pq`: ML-DSA and SLH-DSA.
* `C92_eddsa_param`, `C92_eddsa`, `C92_eddsa_violation`: EdDSA, which takes a signature of any length.
* `C92_ecdsa`, `C92_rsa`: ECDSA and RSA, where only the length of the signature matters if the parameter stays the same.
-/

namespace Kry
namespace Spec

/-- After `tr`, session `h` on slot `i` starts operation `k` with mechanism `m`, parameter `q`, a key for which `V` holds and, for C_VerifySignatureInit, the signature `sig`; the
start succeeds. -/
structure CanStart (M : Mechs) (C : Crypto) (O : Oracle) (d : List (Nat × Db)) (tr : Trace) (e : Env) (h i : Nat) (k : OpKind) (m : Nat) (q : Bytes) (key : Nat) (sig : Bytes)
    (V : Obj → Prop) : Prop where
  there : onSlot M C O (after M C O d tr) h i
  value : Seen C (after M C O d tr) i key V
  started : (step M C O e (after M C O d tr) (.op h (.opInit k (some (m, q)) key sig))).1 = .ok

/-- The answer of the start with another parameter and another signature, in the same state. -/
abbrev startWith (M : Mechs) (C : Crypto) (O : Oracle) (d : List (Nat × Db)) (tr : Trace) (e : Env) (h : Nat) (k : OpKind) (m : Nat) (key : Nat) (q sig : Bytes) : Out :=
  (step M C O e (after M C O d tr) (.op h (.opInit k (some (m, q)) key sig))).1

/-- Only C_VerifySignatureInit looks at the signature: its length has to be `n`. -/
def lenAnswer (k : OpKind) (n : Nat) (sig : Bytes) : Out := if k = .verifySig ∧ sig.length ≠ n then .err .signatureLenRange else .ok

/-- AES-MAC and CMAC: a parameter of 8 bytes, which is a length of at most 16, for the general mechanisms, and none for the others. -/
def macAnswer (m : Nat) (k : OpKind) (q sig : Bytes) : Out :=
  if q.length ≠ (if m = CKM_AES_MAC_GENERAL ∨ m = CKM_AES_CMAC_GENERAL then 8 else 0) then .err .argumentsBad
  else if 16 < sigSize m q then .err .mechanismParamInvalid
  else lenAnswer k (sigSize m q) sig

/-- ML-DSA and SLH-DSA: no parameter or one of the right size, with a known hedge variant, a context of at most 255 bytes, and a digest that is known for the mechanisms that take
digests. -/
def pqAnswer (mem : Bytes → PqParam) (mech : PqMech) (size : Nat) (k : OpKind) (q sig : Bytes) : Out :=
  if q = [] then if mech = .prehash then .err .mechanismInvalid else lenAnswer k size sig
  else if q.length ≠ (if mech = .prehash then 32 else 24) then .err .argumentsBad
  else if 2 < (mem q).hedge ∨ 255 < (mem q).context.length then .err .mechanismParamInvalid
  else if mech = .prehash ∧ digestLen (mem q).hash = none then .err .mechanismInvalid
  else lenAnswer k size sig

/-- EdDSA: without a parameter Ed25519, for Ed448 one is needed; otherwise a CK_EDDSA_PARAMS of its size, with phFlag and context; what OpenSSL does not take is CKR_DEVICE_ERROR. -/
def edAnswer (E : EdEnv) (mem : Bytes → EdParam) (c : EdCurve) (q : Bytes) : Out :=
  if q ≠ [] ∧ q.length ≠ 24 then .err .argumentsBad
  else if q = [] ∧ c = .ed448 then .err .mechanismParamInvalid
  else
    let alg : EdAlg := if q = [] then .ed25519 else match c with
      | .ed25519 => if (mem q).flag = 1 then .ed25519ph else .ed25519ctx
      | .ed448 => if (mem q).flag = 1 then .ed448ph else .ed448
    if E.takes alg (if q = [] ∨ (mem q).context = [] then none else some (mem q).context) then .ok else .err .deviceError

end Spec

open Spec

variable {M : Mechs} {C : Crypto} {O : Oracle} {d : List (Nat × Db)} {tr : Trace} {e : Env} {h i key m : Nat} {k : OpKind} {q sig : Bytes} {V : Obj → Prop}

/-- The answer is that of the mechanism. -/
theorem init_swap (hd : k ≠ .digest) (hX : CanStart M C O d tr e h i k m q key sig V) :
    ∃ o op, V o ∧ newOp M (e.sub 1) k m q (some o) sig = .ok op ∧
      ∀ q' sig', startWith M C O d tr e h k m key q' sig' = Out.of ((newOp M (e.sub 1) k m q' (some o) sig').map fun _ => ()) := by
  obtain ⟨h1, h2, h3⟩ := hX
  have i0 := inv_reach M (C := C) O d tr
  obtain ⟨sl, x, hg, g1, g2⟩ := getSession_live i0 ((onSlot_iff i0).1 h1)
  have ans : ∀ q' sig', startWith M C O d tr e h k m key q' sig' = Out.of (fnInitKey M C e k m q' key sig' x sl.token).1 := by
    intro q' sig'
    unfold startWith step
    simp only [hg]
    unfold opStep
    simp only [if_neg hd]
  have hok := ans q sig
  rw [show startWith M C O d tr e h k m key q sig = .ok from h3] at hok
  unfold fnInitKey at hok ans
  cases c1 : x.checkNoOp k with
  | error r => rw [c1] at hok; cases hok
  | ok u =>
    rw [c1] at hok
    simp only [c1] at ans
    simp only at hok
    by_cases c2 : (!sl.token.isInitialized) = true
    · rw [if_pos c2] at hok; cases hok
    · rw [if_neg c2] at hok
      simp only [if_neg c2] at ans
      cases c3 : sl.token.getObjectByHandle C (e.sub 0) key with
      | error r => rw [c3] at hok; cases hok
      | ok o =>
        rw [c3] at hok
        simp only [c3] at ans
        simp only at hok
        cases c4 : checkAllowed m o with
        | error r => rw [c4] at hok; cases hok
        | ok u =>
          rw [c4] at hok
          simp only [c4] at ans
          simp only at hok
          cases c5 : mechWith M sl.token m (opFlag k) with
          | error r => rw [c5] at hok; cases hok
          | ok u =>
            rw [c5] at hok
            simp only [c5] at ans
            simp only at hok
            obtain ⟨sl2, g4, sv⟩ := h2
            rw [g1] at g4; injection g4 with g4; subst g4
            obtain ⟨x2, g5, hval⟩ := sv quietEnv (fun _ => rfl)
            have := byHandle_mono (e' := quietEnv) (fun _ => rfl) c3
            rw [g5] at this; injection this with this; subst this
            cases c6 : newOp M (e.sub 1) k m q (some x2) sig with
            | error r => rw [c6] at hok; cases hok
            | ok op =>
              refine ⟨x2, op, hval, c6, fun q' sig' => ?_⟩
              rw [ans q' sig']
              cases newOp M (e.sub 1) k m q' (some x2) sig' <;> rfl

/-- The checks of the key come first. -/
theorem newOp_swap {x : Obj} {op : Op} (hn : newOp M e k m q (some x) sig = .ok op) :
    (∃ op', M.new e k m q (some x) sig = .ok op') ∧ ∀ q' sig', (newOp M e k m q' (some x) sig').map (fun _ => ()) = (M.new e k m q' (some x) sig').map fun _ => () := by
  unfold newOp at hn ⊢
  simp only at hn ⊢
  cases hc : famCheck (M.fam m) k x with
  | error r => rw [hc] at hn; cases hn
  | ok u =>
    rw [hc] at hn
    simp only at hn ⊢
    constructor
    · cases hz : M.new e k m q (some x) sig with
      | error r => rw [hz] at hn; cases hn
      | ok op' => exact ⟨op', rfl⟩
    · intro q' sig'
      cases M.new e k m q' (some x) sig' <;> rfl

/-- Both together. -/
theorem start_swap (hd : k ≠ .digest) (hX : CanStart M C O d tr e h i k m q key sig V) :
    ∃ o op, V o ∧ M.new (e.sub 1) k m q (some o) sig = .ok op ∧
      ∀ q' sig', startWith M C O d tr e h k m key q' sig' = Out.of ((M.new (e.sub 1) k m q' (some o) sig').map fun _ => ()) := by
  obtain ⟨o, op, h1, h2, h3⟩ := init_swap hd hX
  obtain ⟨⟨op', h4⟩, h5⟩ := newOp_swap h2
  exact ⟨o, op', h1, h4, fun q' sig' => by rw [h3, h5]⟩

/-! ## AES-MAC and CMAC -/

theorem given_answer {n : Nat} : givenOk (givenFor k sig) n = true ↔ lenAnswer k n sig = .ok := by
  unfold givenFor lenAnswer givenOk
  by_cases hk : k = .verifySig
  · simp only [hk, if_true, true_and]
    by_cases hl : sig.length = n
    · simp [hl]
    · simp [hl]
  · simp [hk]

theorem given_out {α : Type} {n : Nat} {x : α} : Out.of ((if givenOk (givenFor k sig) n then .ok x else .error .signatureLenRange : Res α).map fun _ => ()) = lenAnswer k n sig := by
  by_cases hg : givenOk (givenFor k sig) n = true
  · rw [if_pos hg, given_answer.1 hg]; rfl
  · rw [if_neg hg]
    have h2 : ¬ lenAnswer k n sig = .ok := fun h => hg (given_answer.2 h)
    unfold lenAnswer at h2 ⊢
    split
    · rfl
    · rename_i hc; rw [if_neg hc] at h2; exact absurd rfl h2

/-- The start of a MAC. -/
theorem mac_start {s : AesSig} {x : Obj} {v : Bytes} (hm : aesMacMech m) (hs : aesSig m = some s) (hv : x.getBytes CKA_VALUE = .ok v) (hl : v.length = 16 ∨ v.length = 24 ∨ v.length = 32) :
    Out.of ((aesSigStart s m q x (givenFor k sig)).map fun _ => ()) = macAnswer m k q sig := by
  unfold aesSigStart macAnswer
  rcases hm with rfl | rfl | rfl | rfl <;> injection hs with hs <;> subst hs <;> unfold sigParam
  · simp only [Bool.false_eq_true, if_false]
    rw [if_neg (show ¬ (CKM_AES_MAC = CKM_AES_MAC_GENERAL ∨ CKM_AES_MAC = CKM_AES_CMAC_GENERAL) by decide)]
    by_cases hq : q.length ≠ 0
    · rw [if_pos hq, if_pos hq]; rfl
    · rw [if_neg hq, if_neg hq, if_neg (show ¬ 16 < sigSize CKM_AES_MAC q by show ¬ 16 < 8; decide)]
      simp only [aesMacNew]
      rw [show (aesNew .cbc (.iv (List.replicate 16 0)) true) = _ from rfl]
      simp only [hv, if_pos hl]
      exact given_out
  · rw [if_pos (show (CKM_AES_MAC_GENERAL = CKM_AES_MAC_GENERAL ∨ CKM_AES_MAC_GENERAL = CKM_AES_CMAC_GENERAL) by decide)]
    simp only [Bool.false_eq_true, if_false, if_true]
    by_cases hq : q.length ≠ 8
    · rw [if_pos hq, if_pos hq]; rfl
    · rw [if_neg hq, if_neg hq, show sigSize CKM_AES_MAC_GENERAL q = fromLE q from rfl]
      simp only [aesMacNew]
      by_cases hb : 16 < fromLE q
      · rw [if_pos hb]; simp only [if_pos (show fromLE q > 16 from hb)]; rfl
      · rw [if_neg hb]; simp only [if_neg (show ¬ fromLE q > 16 from hb)]
        rw [show (aesNew .cbc (.iv (List.replicate 16 0)) true) = _ from rfl]
        simp only [hv, if_pos hl]
        exact given_out
  · simp only [Bool.false_eq_true, if_false, if_true]
    rw [if_neg (show ¬ (CKM_AES_CMAC = CKM_AES_MAC_GENERAL ∨ CKM_AES_CMAC = CKM_AES_CMAC_GENERAL) by decide)]
    by_cases hq : q.length ≠ 0
    · rw [if_pos hq, if_pos hq]; rfl
    · rw [if_neg hq, if_neg hq, if_neg (show ¬ 16 < sigSize CKM_AES_CMAC q by show ¬ 16 < 16; decide)]
      simp only [cmacNew, hv, if_pos hl]
      exact given_out
  · rw [if_pos (show (CKM_AES_CMAC_GENERAL = CKM_AES_MAC_GENERAL ∨ CKM_AES_CMAC_GENERAL = CKM_AES_CMAC_GENERAL) by decide)]
    simp only [if_true]
    by_cases hq : q.length ≠ 8
    · rw [if_pos hq, if_pos hq]; rfl
    · rw [if_neg hq, if_neg hq, show sigSize CKM_AES_CMAC_GENERAL q = fromLE q from rfl]
      simp only [cmacNew]
      by_cases hb : 16 < fromLE q
      · rw [if_pos hb]; simp only [if_pos (show fromLE q > 16 from hb)]; rfl
      · rw [if_neg hb]; simp only [if_neg (show ¬ fromLE q > 16 from hb), hv, if_pos hl]
        exact given_out

/-- **C92**: where an AES-MAC or a CMAC can be started with a key, the answers for all parameters and signatures. -/
theorem C92_mac {L : Bytes → AesLib} {K : CmacLib} (hm : aesMacMech m) (hk : k = .sign ∨ k = .verify ∨ k = .verifySig)
    (hX : CanStart (withAesMac M L K) C O d tr e h i k m q key sig V) (q' sig' : Bytes) :
    startWith (withAesMac M L K) C O d tr e h k m key q' sig' = macAnswer m k q' sig' := by
  have hd : k ≠ .digest := by rcases hk with h | h | h <;> subst h <;> decide
  obtain ⟨s, hs, -⟩ := aesSig_of hm
  obtain ⟨x, op, -, h2, h3⟩ := start_swap hd hX
  rw [h3]
  have new : ∀ q sig, (withAesMac M L K).new (e.sub 1) k m q (some x) sig = aesSigStart s m q x (givenFor k sig) := by
    intro q sig
    unfold withAesMac
    simp only [hs]
    rfl
  rw [new] at h2 ⊢
  unfold aesSigStart at h2
  have : ∃ v, x.getBytes CKA_VALUE = .ok v ∧ (v.length = 16 ∨ v.length = 24 ∨ v.length = 32) := by
    repeat' split at h2
    all_goals first | (cases h2; done) | exact ⟨_, by assumption, by assumption⟩
  obtain ⟨v, hv, hl⟩ := this
  exact mac_start hm hs hv hl

/-! ## ECDSA and RSA -/

/-- **C92**: where an ECDSA verification can be started with a key, the parameter is ignored, and a signature given to C_VerifySignatureInit must have twice the length of the order. -/
theorem C92_ecdsa {K : EcKeys} {p v : Bytes} {bits : Nat} {P : EcdsaPrims} (hm : ecMech m = true) (hk : k = .sign ∨ k = .verify ∨ k = .verifySig) (hb : 0 < bits) (hb' : bits ≤ 992)
    (hl : K.load m (decide (k = .sign)) p v = some (bits, P)) (hX : CanStart (withEc M K) C O d tr e h i k m q key sig (edKeyIs k p v)) (q' sig' : Bytes) :
    startWith (withEc M K) C O d tr e h k m key q' sig' = lenAnswer k (2 * curveBytes bits) sig' := by
  have hd : k ≠ .digest := by rcases hk with h | h | h <;> subst h <;> decide
  obtain ⟨x, op, hx, -, h3⟩ := start_swap hd hX
  rw [h3]
  have hv2 : x.getBytes (if decide (k = .sign) = true then CKA_VALUE else CKA_EC_POINT) = .ok v := by
    have := hx.2
    by_cases hs : k = .sign
    · simpa [hs] using this
    · simpa [hs] using this
  have hn : (withEc M K).new (e.sub 1) k m q' (some x) sig' = match EcdsaOp.new (decide (m = CKM_ECDSA)) bits (givenFor k sig') with
      | .error r => .error r
      | .ok o => .ok (ecOp m ⟨decide (k = .sign), p, v⟩ o) := by
    unfold withEc
    simp only [hm, if_true]
    unfold ecStart edKey
    rw [hx.1]
    simp only
    rw [hv2]
    simp only [hl]
    rfl
  rw [hn]
  unfold EcdsaOp.new givenFor lenAnswer
  by_cases hk' : k = .verifySig
  · simp only [hk', if_true, true_and]
    rw [show 2 * ((bits + 7) / 8) = 2 * curveBytes bits from rfl]
    by_cases hl : sig'.length ≠ 2 * curveBytes bits
    · rw [if_pos hl, if_pos hl]; rfl
    · rw [if_neg hl, if_neg hl]
      obtain ⟨d, hd, -⟩ := C77_to_der sig' (curveBytes bits) (by unfold curveBytes; omega) (by omega)
      rw [hd]
      rfl
  · simp only [hk', if_false, false_and]
    rfl

/-- **C92**: where an RSA verification can be started with a key and a parameter, a signature given to C_VerifySignatureInit must have the length of the modulus. -/
theorem C92_rsa {K : RsaKeys} {kd : RsaKey} {P : RsaPrims} {mech : RsaMech} (hm : rsaSigns m = true) (hk : k = .sign ∨ k = .verify ∨ k = .verifySig) (hq : rsaMechOf m q = .ok mech)
    (hl : K.load mech kd = some P) (hX : CanStart (withRsa M K) C O d tr e h i k m q key sig (rsaKeyIs k kd)) (sig' : Bytes) :
    startWith (withRsa M K) C O d tr e h k m key q sig' = lenAnswer k kd.n.length sig' := by
  have hd : k ≠ .digest := by rcases hk with h | h | h <;> subst h <;> decide
  have hk' : rsaKind k = true := by rcases hk with h | h | h <;> subst h <;> rfl
  obtain ⟨x, op, hx, h2, h3⟩ := start_swap hd hX
  rw [h3]
  have hn : ∀ s, (withRsa M K).new (e.sub 1) k m q (some x) s = match rsaSigParams mech with
      | .error r => .error r
      | .ok _ => match RsaOp.sigverNew 1024 16384 mech kd.n (givenFor k s) with
        | .error r => .error r
        | .ok o => .ok (rsaOp m q kd o) := by
    intro s
    unfold withRsa
    simp only [hm, hk', if_true]
    unfold rsaStart
    rw [hq]
    simp only
    rw [rsaKey_is hx]
    simp only [hl]
    rfl
  rw [hn] at h2 ⊢
  unfold RsaOp.sigverNew at h2 ⊢
  cases c1 : rsaSigParams mech with
  | error r => rw [c1] at h2; cases h2
  | ok pp =>
    rw [c1] at h2
    simp only at h2 ⊢
    cases c2 : rsaKeySize 1024 16384 kd.n with
    | error r => rw [c2] at h2; cases h2
    | ok n =>
      rw [c2] at h2
      simp only at h2 ⊢
      have hnn : n = kd.n.length := by
        unfold rsaKeySize at c2
        repeat' split at c2
        all_goals first | (cases c2; done) | (injection c2 with c2; exact c2.symm)
      cases c3 : rsaMaxLen n mech with
      | error r => rw [c3] at h2; cases h2
      | ok mx =>
        simp only
        unfold givenFor lenAnswer
        by_cases hv : k = .verifySig
        · simp only [hv, if_true, true_and]
          rw [← hnn]
          by_cases hl : sig'.length ≠ n
          · rw [if_pos hl, if_pos hl]; rfl
          · rw [if_neg hl, if_neg hl]; rfl
        · simp only [hv, if_false, false_and]
          rfl

/-! ## EdDSA -/

/-- **C92**: where CKM_EDDSA can be started with a key and a parameter, any signature is taken. -/
theorem C92_eddsa {K : EdKeys} {mem : Bytes → EdParam} (hk : k = .sign ∨ k = .verify ∨ k = .verifySig)
    (hX : CanStart (withEd M K mem) C O d tr e h i k CKM_EDDSA q key sig V) (sig' : Bytes) :
    startWith (withEd M K mem) C O d tr e h k CKM_EDDSA key q sig' = .ok := by
  have hd : k ≠ .digest := by rcases hk with h | h | h <;> subst h <;> decide
  obtain ⟨x, op, -, h2, h3⟩ := start_swap hd hX
  rw [h3]
  have hn : ∀ s, (withEd M K mem).new (e.sub 1) k CKM_EDDSA q (some x) s = edStart K mem q (decide (k = .sign)) x (givenFor k s) := fun s => rfl
  rw [hn] at h2 ⊢
  unfold edStart at h2 ⊢
  cases c1 : edKey (decide (k = .sign)) x with
  | error r => rw [c1] at h2; cases h2
  | ok kd =>
    rw [c1] at h2
    simp only at h2 ⊢
    cases c2 : K.load kd.priv kd.params kd.value with
    | none => rw [c2] at h2; cases h2
    | some p =>
      obtain ⟨c, E⟩ := p
      rw [c2] at h2
      simp only at h2 ⊢
      cases c3 : edParamOf mem q with
      | error r => rw [c3] at h2; cases h2
      | ok p =>
        rw [c3] at h2
        simp only at h2 ⊢
        unfold EdOp.new at h2 ⊢
        cases c4 : edParse c p with
        | error r => rw [c4] at h2; cases h2
        | ok p =>
          obtain ⟨alg, ctx⟩ := p
          rw [c4] at h2
          simp only at h2 ⊢
          by_cases c5 : (!E.takes alg ctx) = true
          · rw [if_pos c5] at h2; cases h2
          · rw [if_neg c5]
            unfold givenFor OsslSig.setSignature
            by_cases hv : k = .verifySig
            · subst hv
              simp only [if_true, show decide (OpKind.verifySig = .sign) = false from rfl, Bool.false_eq_true, if_false, true_or, or_true]
              rfl
            · simp only [hv, if_false]
              rfl

/-- **C92**: where CKM_EDDSA can be started with a key, the answer for any parameter and signature. -/
theorem C92_eddsa_param {K : EdKeys} {mem : Bytes → EdParam} {ps v : Bytes} {c : EdCurve} {E : EdEnv} (hk : k = .sign ∨ k = .verify ∨ k = .verifySig)
    (hl : K.load (decide (k = .sign)) ps v = some (c, E)) (hX : CanStart (withEd M K mem) C O d tr e h i k CKM_EDDSA q key sig (edKeyIs k ps v)) (q' sig' : Bytes) :
    startWith (withEd M K mem) C O d tr e h k CKM_EDDSA key q' sig' = edAnswer E mem c q' := by
  have hd : k ≠ .digest := by rcases hk with h | h | h <;> subst h <;> decide
  obtain ⟨x, op, hx, -, h3⟩ := start_swap hd hX
  rw [h3]
  rw [show (withEd M K mem).new (e.sub 1) k CKM_EDDSA q' (some x) sig' = edStart K mem q' (decide (k = .sign)) x (givenFor k sig') from rfl]
  have hkey : edKey (decide (k = .sign)) x = .ok ⟨decide (k = .sign), ps, v⟩ := by
    unfold edKey
    rw [hx.1]
    simp only
    have := hx.2
    by_cases hs : k = .sign
    · simp only [hs, if_true] at this; simp only [hs, decide_true, if_true]; rw [this]
    · simp only [hs, if_false] at this; simp only [hs, decide_false, Bool.false_eq_true, if_false]; rw [this]
  unfold edStart
  rw [hkey]
  simp only [hl]
  have fin : ∀ (alg : EdAlg) (ctx : Option Bytes) (p : Option EdParam), edParse c p = .ok (alg, ctx) →
      Out.of ((match EdOp.new E K.mode (decide (k = .sign)) c p (givenFor k sig') with
        | .error r => .error r
        | .ok o => .ok (edOp ⟨decide (k = .sign), ps, v⟩ o) : Res Op).map fun _ => ()) = if E.takes alg ctx then .ok else .err .deviceError := by
    intro alg ctx p hp
    unfold EdOp.new
    rw [hp]
    simp only
    by_cases ht : E.takes alg ctx = true
    · rw [if_pos ht, ht]
      simp only [Bool.not_true, Bool.false_eq_true, if_false]
      unfold givenFor OsslSig.setSignature
      by_cases hv : k = .verifySig
      · subst hv
        simp only [if_true, show decide (OpKind.verifySig = .sign) = false from rfl, Bool.false_eq_true, if_false, true_or, or_true]
        rfl
      · simp only [hv, if_false]
        rfl
    · rw [if_neg ht]
      simp only [Bool.not_eq_true] at ht
      rw [ht]
      rfl
  unfold edParamOf edAnswer
  cases q' with
  | nil =>
    simp only [List.length_nil, if_true, ne_eq, not_true, false_and, if_false, true_and, true_or]
    cases c with
    | ed25519 => exact fin _ _ _ rfl
    | ed448 => rfl
  | cons a t =>
    have h0 : ¬ (a :: t).length = 0 := by simp
    rw [if_neg h0]
    by_cases h1 : (a :: t).length ≠ 24
    · rw [if_pos h1, if_pos ⟨by simp, h1⟩]; rfl
    · rw [if_neg h1, if_neg (fun h => h1 h.2), if_neg (fun h => by cases h.1)]
      have hc : (if (a :: t) = [] ∨ (mem (a :: t)).context = [] then none else some (mem (a :: t)).context) =
          (if (mem (a :: t)).context.length = 0 then none else some (mem (a :: t)).context : Option Bytes) := by
        by_cases hz : (mem (a :: t)).context = []
        · rw [if_pos (.inr hz), if_pos (by rw [hz]; rfl)]
        · rw [if_neg (fun h => by rcases h with h | h; cases h; exact hz h), if_neg (fun h => hz (List.length_eq_zero_iff.1 h))]
      simp only [hc]
      rw [if_neg (show ¬ (a :: t) = [] from nofun)]
      cases c with
      | ed25519 => exact fin _ _ _ rfl
      | ed448 => exact fin _ _ _ rfl

/-! ## ML-DSA and SLH-DSA -/

/-- The digest of the mechanism is one that is known. -/
def goodMech (mech : PqMech) : Prop := mech = .pure ∨ mech = .prehash ∨ ∃ g n, mech = .hashed g ∧ g.size = some n

/-- The last step. -/
theorem pq_given {o : PqOp} {size : Nat} (hs : o.pars.set.sigSize = size) (hg : o.sigctx.signs = decide (k = .sign)) :
    Out.of ((if decide (k = .sign) = true then .ok o else match givenFor k sig with
      | none => .ok o
      | some s => o.setSignature s : Res PqOp).map fun _ => ()) = lenAnswer k size sig := by
  by_cases hk : k = .verifySig
  · subst hk
    rw [if_neg (by decide)]
    unfold givenFor lenAnswer PqOp.setSignature OsslSig.setSignature
    simp only [if_true, true_and, hs]
    rw [show o.sigctx.signs = false from hg]
    by_cases hl : sig.length ≠ size
    · rw [if_pos hl, if_pos hl]; rfl
    · rw [if_neg hl, if_neg hl]
      repeat' split
      all_goals first | rfl | (rename_i hx; repeat' split at hx; all_goals first | (cases hx; done) | simp_all)
  · unfold lenAnswer givenFor
    simp only [hk, if_false, false_and]
    split <;> rfl

theorem pq_new_answer {probe : Bool} {mech : PqMech} {set : PqSet} {p : PqParam} (hm : goodMech mech) :
    Out.of ((PqOp.new probe (decide (k = .sign)) mech set none (givenFor k sig)).map fun _ => ()) = (if mech = .prehash then .err .mechanismInvalid else lenAnswer k set.sigSize sig) ∧
    Out.of ((PqOp.new probe (decide (k = .sign)) mech set (some p) (givenFor k sig)).map fun _ => ()) =
      (if 2 < p.hedge ∨ 255 < p.context.length then .err .mechanismParamInvalid
        else if mech = .prehash ∧ digestLen p.hash = none then .err .mechanismInvalid
        else lenAnswer k set.sigSize sig) := by
  have hm' : mech ≠ .other := by rcases hm with h | h | ⟨g, n, h, -⟩ <;> subst h <;> nofun
  constructor
  · unfold PqOp.new PqPars.new
    simp only
    rcases hm with h | h | ⟨g, n, h, hg⟩ <;> subst h
    · rw [if_neg (by decide)]
      unfold PqOp.setup
      simp only
      exact pq_given rfl rfl
    · rw [if_pos rfl]
      rfl
    · rw [if_neg (by nofun)]
      unfold PqOp.setup
      simp only [hg]
      exact pq_given rfl rfl
  · unfold PqOp.new PqPars.new
    simp only [if_neg hm']
    by_cases c1 : p.hedge ≠ 0 ∧ p.hedge ≠ 1 ∧ p.hedge ≠ 2
    · rw [if_pos c1, if_pos (.inl (by omega))]; rfl
    · rw [if_neg c1]
      by_cases c2 : 255 < p.context.length
      · rw [if_pos c2, if_pos (.inr c2)]; rfl
      · have hno : ¬ (2 < p.hedge ∨ 255 < p.context.length) := by omega
        rw [if_neg c2, if_neg hno]
        simp only
        rcases hm with h | h | ⟨g, n, h, hg⟩ <;> subst h
        · rw [if_neg (show ¬ (PqMech.pure = .prehash ∧ digestLen p.hash = none) from fun h => by cases h.1)]
          unfold PqOp.setup
          simp only
          exact pq_given rfl rfl
        · simp only [true_and, digestLen_eq, if_true]
          unfold PqOp.setup
          simp only
          cases hz : p.hash.size with
          | none => simp only [if_true]; rfl
          | some n =>
            rw [if_neg (show ¬ some n = none from nofun)]
            simp only
            exact pq_given rfl rfl
        · rw [if_neg (show ¬ (PqMech.hashed g = .prehash ∧ digestLen p.hash = none) from fun h => by cases h.1)]
          unfold PqOp.setup
          simp only [hg]
          exact pq_given rfl rfl

/-- **C92**: where an ML-DSA or SLH-DSA mechanism can be started with a key, the answers for all parameters and signatures. -/
theorem C92_pq {K : PqKeys} {mem : Bytes → PqParam} {slh : Bool} {mech : PqMech} {kd : PqKey} {set : PqSet} (hm : pqTab.lookup m = some (slh, mech))
    (hk : k = .sign ∨ k = .verify ∨ k = .verifySig) (hset : (pqSetTab slh).lookup kd.set = some set)
    (hX : CanStart (withPq M K mem) C O d tr e h i k m q key sig (pqKeyIs slh k kd)) (q' sig' : Bytes) :
    startWith (withPq M K mem) C O d tr e h k m key q' sig' = pqAnswer mem mech set.sigSize k q' sig' := by
  have hd : k ≠ .digest := by rcases hk with h | h | h <;> subst h <;> decide
  obtain ⟨x, op, hx, h2, h3⟩ := start_swap hd hX
  rw [h3]
  have hpr : kd.priv = decide (k = .sign) := by
    obtain ⟨-, -, h3, -⟩ := hx
    cases hc : kd.priv with
    | true => exact (decide_eq_true (h3.1 hc)).symm
    | false => exact (decide_eq_false (fun hk => by have := h3.2 hk; rw [hc] at this; cases this)).symm
  have hn : ∀ q s, (withPq M K mem).new (e.sub 1) k m q (some x) s = match pqParamOf mem mech q with
      | .error r => .error r
      | .ok p => match PqOp.new K.probe (decide (k = .sign)) mech set p (givenFor k s) with
        | .error r => .error r
        | .ok o => match K.load slh kd with
          | none => .error .deviceError
          | some _ => .ok (pqOp m q kd o) := by
    intro q s
    unfold withPq
    simp only [hm, Option.isSome_some, if_true]
    unfold pqStart
    rw [hm]
    simp only
    rw [pqKey_is hx]
    simp only
    unfold pqBase
    rw [hset]
    simp only
    cases pqParamOf mem mech q with
    | error r => rfl
    | ok p => simp only [hpr]; rfl
  rw [hn] at h2 ⊢
  obtain ⟨E, hE, hgood⟩ : ∃ E, K.load slh kd = some E ∧ goodMech mech := by
    cases c1 : pqParamOf mem mech q with
    | error r => rw [c1] at h2; cases h2
    | ok p =>
      rw [c1] at h2
      simp only at h2
      cases c2 : PqOp.new K.probe (decide (k = .sign)) mech set p (givenFor k sig) with
      | error r => rw [c2] at h2; cases h2
      | ok o =>
        rw [c2] at h2
        simp only at h2
        cases c3 : K.load slh kd with
        | none => rw [c3] at h2; cases h2
        | some E =>
          have hd := new_made c2
          refine ⟨E, rfl, ?_⟩
          rcases hd.known with h | h | ⟨g, h⟩
          · exact .inl h
          · exact .inr (.inl h)
          · exact .inr (.inr ⟨g, _, h, (hd.hashed g h).2.1⟩)
  rw [hE]
  have fin : ∀ p, Out.of ((match PqOp.new K.probe (decide (k = .sign)) mech set p (givenFor k sig') with
      | .error r => .error r
      | .ok o => .ok (pqOp m q' kd o) : Res Op).map fun _ => ()) = Out.of ((PqOp.new K.probe (decide (k = .sign)) mech set p (givenFor k sig')).map fun _ => ()) := by
    intro p
    cases PqOp.new K.probe (decide (k = .sign)) mech set p (givenFor k sig') <;> rfl
  unfold pqParamOf pqAnswer
  by_cases c1 : q' = []
  · rw [if_pos (by rw [c1]; rfl), if_pos c1]
    simp only
    rw [fin]
    exact (pq_new_answer (p := ⟨0, [], .other⟩) hgood).1
  · rw [if_neg (fun h => c1 (List.eq_nil_of_length_eq_zero h)), if_neg c1]
    by_cases c2 : q'.length ≠ (if mech = .prehash then 32 else 24)
    · rw [if_pos c2, if_pos c2]; rfl
    · rw [if_neg c2, if_neg c2]
      simp only
      rw [fin]
      exact (pq_new_answer hgood).2

/-! ## Cases -/

set_option maxRecDepth 20000 in
/-- **C92**: C_VerifySignatureInit with CKM_EDDSA takes a signature of one byte (`src/ossl/eddsa.rs:134-169` does not look at the length). -/
theorem C92_eddsa_violation : startWith exEdM exCrypto exOracle [] exEdStart' (exEnv 20) 2 .verifySig CKM_EDDSA 9 exEdQ [1] = .ok ∧
    CanStart exEdM exCrypto exOracle [] exEdStart' (exEnv 20) 2 7 .verifySig CKM_EDDSA exEdQ 9 [1] (edKeyIs .verify [6, 3, 0x2b, 0x65, 0x70] (List.replicate 32 6)) :=
  ⟨by decide +kernel, exEd_verified.there, exEd_verified.value, by decide +kernel⟩

example : startWith exEdM exCrypto exOracle [] exEdStart' (exEnv 20) 2 .verifySig CKM_EDDSA 9 exEdQ exEdSig = .ok := C92_eddsa (by decide) C92_eddsa_violation.2 _

theorem can_start {tr2 : Trace} {X : List ((Act × OpIn) × Out)} (w : Went M C O d tr e h i k m q key sig V tr2 X) : CanStart M C O d tr e h i k m q key sig V := ⟨w.there, w.value, w.started⟩

/-- EdDSA with a parameter of 7 bytes: refused. -/
example : startWith exEdM exCrypto exOracle [] exEdStart' (exEnv 20) 2 .verify CKM_EDDSA 9 [1, 2, 3, 4, 5, 6, 7] [] = .err .argumentsBad :=
  (C92_eddsa_param (by decide) rfl (can_start exEd_verified) _ _).trans rfl

/-- CMAC with a signature of 5 bytes: refused. -/
example : startWith exSigM exCrypto exOracle [] exSigStart (exEnv 9) 1 .verifySig CKM_AES_CMAC 11 [] [1, 2, 3, 4, 5] = .err .signatureLenRange :=
  (C92_mac (by unfold aesMacMech; decide) (by decide) (can_start exSig_given) _ _).trans (by decide)

/-- CMAC of 16 bytes is taken, of 17 not. -/
example : startWith exSigM exCrypto exOracle [] exSigStart (exEnv 9) 1 .sign CKM_AES_CMAC_GENERAL 11 (ulongBytes 16) [] = .ok ∧
    startWith exSigM exCrypto exOracle [] exSigStart (exEnv 9) 1 .sign CKM_AES_CMAC_GENERAL 11 (ulongBytes 17) [] = .err .mechanismParamInvalid :=
  ⟨(C92_mac (by unfold aesMacMech; decide) (by decide) (can_start exSig_cmac) _ _).trans (by decide), (C92_mac (by unfold aesMacMech; decide) (by decide) (can_start exSig_cmac) _ _).trans (by decide)⟩

/-- ECDSA: any parameter is ignored. -/
example : startWith exEcM exCrypto exOracle [] exEcStart' (exEnv 20) 2 .verify CKM_ECDSA_SHA256 9 [1, 2, 3] [] = .ok :=
  (C92_ecdsa (bits := 256) (P := ecToyPrims) (by decide) (by decide) (by decide) (by decide) rfl (can_start exEc_verified) _ _).trans (by decide)

/-- RSA. -/
example : startWith exRsM exCrypto exOracle [] exRsStart' (exEnv 20) 2 .verify CKM_SHA256_RSA_PKCS 9 [] [7] = .ok :=
  (C92_rsa (P := rsaToyPrims) (mech := .hashPkcs .sha256) (by decide) (by decide) rfl rfl (can_start exRs_verified) _).trans (by decide)

/-- CKM_HASH_ML_DSA: a parameter is needed. -/
example : startWith exPqM exCrypto exOracle [] exPqStart' (exEnv 20) 2 .verify CKM_HASH_ML_DSA 10 [] [] = .err .mechanismInvalid :=
  (C92_pq (mech := .prehash) (slh := false) (set := .ml44) (by decide) (by decide) (by decide) (can_start exPq_verified) _ _).trans (by decide)

end Kry
