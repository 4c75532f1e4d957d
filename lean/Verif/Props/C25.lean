import Verif.Spec.Use
import Verif.Proofs.KeyFacts
import Verif.Proofs.Codec
import Verif.Props.MachineEx
import Verif.Props.Sessions

/-!
# C25: an operation starts only when the token, the key's mechanism list and its usage attribute allow it

`C25_init_partial`, `C25_digest`, `C25_wrap`, `C25_unwrap`, `C25_derive_partial`, `C25_encapsulate`, `C25_decapsulate`,
`C25_generate`, `C25_generatePair`.  Not so: signing with a TLS MAC wants CKA_DERIVE instead of CKA_SIGN
(`C25_tls_violation`); CKM_PUB_KEY_FROM_PRIV_KEY and HKDF with a data object ask for no usage attribute
(`C25_derive_violation`).
-/

namespace Kry
open Spec

variable {M : Mechs} {C : Crypto} {O : Oracle}

theorem checkAllowed_ok {m : Nat} {o : Obj} (h : checkAllowed m o = .ok ()) :
    ∀ a, o.find CKA_ALLOWED_MECHANISMS = some a → listed a.value m := by
  intro a ha
  unfold checkAllowed at h
  rw [ha] at h
  simp only at h
  split at h
  · cases h
  · rename_i h8
    split at h
    · rename_i hc
      refine ⟨chunks8 a.value, (chunks8_bytes (a.value.length / 8) a.value (by omega)).symm, ?_⟩
      simpa using hc
    · cases h

theorem plain_allowed : plainTy CKA_ALLOWED_MECHANISMS := plain_of (by decide) (by decide +kernel)

theorem permits_of {s : St} (hi : Inv s) (ht : TInv s) {h n i m : Nat} {e : Env} {sl : Slot} {x : Session} {o : Obj}
    (hg : s.getSession h = .ok (i, sl, x)) (ho : sl.token.getObjectByHandle C e n = .ok o)
    (hc : checkAllowed m o = .ok ()) : permits M C O s h n m := by
  intro v hr
  obtain ⟨a, hf, hv⟩ := key_reports hi ht hr plain_allowed hg ho
  rw [← hv]; exact checkAllowed_ok hc a hf

theorem mechWith_ok {t : Token} {m f : Nat} (h : mechWith M t m f = .ok ()) :
    m ∈ t.mechsList ∧ M.flags m &&& f ≠ 0 := by
  unfold mechWith at h
  split at h
  · cases h
  · rename_i h1
    split at h
    · cases h
    · rename_i h2
      exact ⟨by simpa using h1, h2⟩

theorem offers_of {s : St} {h i m f : Nat} {sl : Slot} {x : Session} (hg : s.getSession h = .ok (i, sl, x))
    (hm : mechWith M sl.token m f = .ok ()) : offers M s i m f :=
  ⟨sl, (getSession_ok hg).2.2.1, mechWith_ok hm⟩

theorem getBool_true {o : Obj} {t : Nat} (h : o.getBool t = .ok true) :
    ∃ a b, o.find t = some a ∧ a.value = [b] ∧ b ≠ 0 := by
  unfold Obj.getBool at h
  cases hf : o.find t with
  | none => rw [hf] at h; cases h
  | some a =>
    rw [hf] at h
    simp only [Attr.toBool] at h
    split at h
    · cases h
    · split at h
      · rename_i b hb
        injection h with h
        exact ⟨a, b, rfl, hb, by simpa using h⟩
      · cases h

theorem notFalse_of {s : St} (hi : Inv s) (ht : TInv s) {h n i ty : Nat} {e : Env} {sl : Slot} {x : Session} {o : Obj}
    (hp : plainTy ty) (hg : s.getSession h = .ok (i, sl, x)) (ho : sl.token.getObjectByHandle C e n = .ok o)
    (hb : o.getBool ty = .ok true) : notFalse M C O s h n ty := by
  intro v hr
  obtain ⟨a, hf, hv⟩ := key_reports hi ht hr hp hg ho
  obtain ⟨a', b, hf', hv', hb'⟩ := getBool_true hb
  rw [hf] at hf'; injection hf' with hf'; subst hf'
  exact ⟨b, hb', by rw [← hv, hv']⟩

theorem saysTrue_of {s : St} (ht : TInv s) {h n i ty : Nat} {e : Env} {sl : Slot} {x : Session} {o : Obj} {F : Factory}
    (hp : plainTy ty) (hty : ty < 2 ^ 32) (hg : s.getSession h = .ok (i, sl, x)) (hin : sl.token.isInitialized = true)
    (ho : sl.token.getObjectByHandle C e n = .ok o) (hb : o.getBool ty = .ok true) (hF : objFactory o = .ok F)
    (hs : F.shows ty = true) : saysTrue M C O s h n ty := by
  obtain ⟨a, b, hf, hv, hb'⟩ := getBool_true hb
  refine ⟨b, hb', ?_⟩
  rw [← hv]
  exact reports_key ht hg hin ho hf hp (by rw [hv]; exact (by decide : 1 < CK_UNAVAILABLE_INFORMATION)) hty hF hs

/-- Class, type and usage of a key that passed `check_key_ops`. -/
theorem checkKeyOps_ok {o : Obj} {cls kt op : Nat} (h : o.checkKeyOps cls kt op = .ok ())
    (hk : kt ≠ CK_UNAVAILABLE_INFORMATION) :
    o.getUlong CKA_CLASS = .ok cls ∧ o.getUlong CKA_KEY_TYPE = .ok kt ∧ o.getBool op = .ok true := by
  unfold Obj.checkKeyOps at h
  rw [if_pos hk] at h
  split at h
  · cases h
  · rename_i c hc
    split at h
    · cases h
    · rename_i hcc
      simp only at h
      cases hkt : o.getUlong CKA_KEY_TYPE with
      | error r => rw [hkt] at h; cases h
      | ok k =>
        rw [hkt] at h
        simp only at h
        by_cases hkk : k = kt
        · simp only [hkk, ne_eq, not_true, if_false] at h
          split at h
          · rename_i hb
            exact ⟨by rw [hc]; congr 1; exact Classical.not_not.1 hcc, by rw [hkk], hb⟩
          · cases h
        · simp [hkk] at h

theorem objFactory_key {o : Obj} {cls kt : Nat} (hk : keyClass cls = true) (hc : cls ≠ CKO_CERTIFICATE)
    (h1 : o.getUlong CKA_CLASS = .ok cls) (h2 : o.getUlong CKA_KEY_TYPE = .ok kt) :
    objFactory o = getFactory cls kt := by
  unfold objFactory
  rw [h1]
  simp only [if_neg hc, hk, if_true, h2]

/-- The table of a class shows an attribute. -/
def showsFor (cls kt ty : Nat) : Bool :=
  match getFactory cls kt with
  | .ok F => F.shows ty
  | .error _ => false

theorem saysTrue_ops {s : St} (ht : TInv s) {h n i ty cls kt : Nat} {e : Env} {sl : Slot} {x : Session} {o : Obj}
    (hp : plainTy ty) (hty : ty < 2 ^ 32) (hg : s.getSession h = .ok (i, sl, x)) (hin : sl.token.isInitialized = true)
    (ho : sl.token.getObjectByHandle C e n = .ok o) (hc : o.checkKeyOps cls kt ty = .ok ())
    (hk : kt ≠ CK_UNAVAILABLE_INFORMATION) (hkc : keyClass cls = true) (hcc : cls ≠ CKO_CERTIFICATE)
    (hs : showsFor cls kt ty = true) : saysTrue M C O s h n ty := by
  obtain ⟨h1, h2, h3⟩ := checkKeyOps_ok hc hk
  unfold showsFor at hs
  split at hs
  · rename_i F hF
    exact saysTrue_of ht hp hty hg hin ho h3 ((objFactory_key hkc hcc h1 h2).trans hF) hs
  · cases hs

theorem plain_usage (k : OpKind) : plainTy (usage k) := by
  cases k <;> exact plain_of (by decide) (by decide +kernel)

theorem usage_small (k : OpKind) : usage k < 2 ^ 32 := by cases k <;> decide

theorem secret_shows (k : OpKind) : ∀ F ∈ registry, F.1.1 = CKO_SECRET_KEY → F.2.shows (usage k) = true := by
  cases k <;> decide +kernel

theorem secret_showsFor (k : OpKind) {kt : Nat} {F : Factory} (hF : getFactory CKO_SECRET_KEY kt = .ok F) :
    showsFor CKO_SECRET_KEY kt (usage k) = true := by
  unfold showsFor
  rw [hF]
  exact secret_shows k _ (getFactory_mem hF) rfl

theorem unavailable_type : getFactory CKO_SECRET_KEY CK_UNAVAILABLE_INFORMATION = .error .attrValueInvalid := by
  decide +kernel

theorem newOp_check {e : Env} {k : OpKind} {m : Nat} {p sig : Bytes} {o : Obj} {op : Op}
    (h : newOp M e k m p (some o) sig = .ok op) : famCheck (M.fam m) k o = .ok () := by
  unfold newOp at h
  simp only at h
  split at h
  · cases h
  · assumption

theorem hmacCheck_ok {o : Obj} {kt op : Nat} (h : hmacCheck o kt op = .ok ()) :
    o.checkKeyOps CKO_SECRET_KEY CKK_GENERIC_SECRET op = .ok () ∨ o.checkKeyOps CKO_SECRET_KEY kt op = .ok () := by
  unfold hmacCheck at h
  simp only at h
  cases h1 : o.checkKeyOps CKO_SECRET_KEY CKK_GENERIC_SECRET op with
  | ok u => exact .inl rfl
  | error r =>
    rw [h1] at h
    simp only at h
    cases h2 : o.checkKeyOps CKO_SECRET_KEY kt op with
    | ok u => exact .inr rfl
    | error r => rw [h2] at h; cases h

/-- **C25, partial**: C_SignInit, C_VerifyInit, C_VerifySignatureInit, C_EncryptInit, C_DecryptInit,
C_MessageEncryptInit and C_MessageDecryptInit succeed only if the token offers the mechanism for that operation, the
key's CKA_ALLOWED_MECHANISMS, if any, lists it, and C_GetAttributeValue reports the usage attribute of the key as true.
The usage attribute is not the one tested for the TLS MACs (`C25_tls_violation`). -/
theorem C25_init_partial (hM : HmacTypes M) (d : List (Nat × Db)) (hd : ∀ p ∈ d, TblOk p.2.objs) (tr : Trace) (e : Env)
    (h i key : Nat) (k : OpKind) (hk : k ≠ .digest) (m : Nat) (p sig : Bytes)
    (hs : onSlot M C O (after M C O d tr) h i)
    (hok : (step M C O e (after M C O d tr) (.op h (.opInit k (some (m, p)) key sig))).1 = .ok) :
    offers M (after M C O d tr) i m (purpose k) ∧ permits M C O (after M C O d tr) h key m ∧
      (M.fam m ≠ .tlsMac → saysTrue M C O (after M C O d tr) h key (usage k)) := by
  have hi : Inv (after M C O d tr) := inv_reach M O d tr
  have ht : TInv (after M C O d tr) := tinv_reach M O hd tr
  generalize after M C O d tr = s at *
  obtain ⟨sl, x, hg, h1, h2⟩ := getSession_live hi ((onSlot_iff hi).1 hs)
  unfold step at hok
  simp only [hg, opStep, if_neg hk] at hok
  have hok' : (fnInitKey M C e k m p key sig x sl.token).1 = .ok () := by
    cases hq : (fnInitKey M C e k m p key sig x sl.token).1 with
    | error r => rw [hq] at hok; cases hok
    | ok u => rfl
  obtain ⟨hin, o, op, ho, ha, hm, hn, _⟩ := initKey_ok hok'
  have hpur : opFlag k = purpose k := by cases k <;> rfl
  rw [hpur] at hm
  refine ⟨offers_of hg hm, permits_of hi ht hg ho ha, fun hfam => ?_⟩
  have hch := newOp_check hn
  have ops : ∀ {cls kt}, o.checkKeyOps cls kt (usage k) = .ok () → kt ≠ CK_UNAVAILABLE_INFORMATION →
      keyClass cls = true → cls ≠ CKO_CERTIFICATE → showsFor cls kt (usage k) = true →
      saysTrue M C O s h key (usage k) := fun hc a1 a2 a3 a4 =>
    saysTrue_ops ht (plain_usage k) (usage_small k) hg hin ho hc a1 a2 a3 a4
  cases hf : M.fam m with
  | aes =>
    rw [hf] at hch
    cases k <;> first | (exact (hk rfl).elim) | (exact ops hch (by decide) (by decide) (by decide) (by decide +kernel))
  | rsa =>
    rw [hf] at hch
    cases k <;> first
      | (cases hch; done)
      | (exact ops hch (by decide) (by decide) (by decide) (by decide +kernel))
  | ecdsa =>
    rw [hf] at hch
    cases k <;> first
      | (cases hch; done)
      | (exact ops hch (by decide) (by decide) (by decide) (by decide +kernel))
  | eddsa =>
    rw [hf] at hch
    cases k <;> first
      | (cases hch; done)
      | (exact ops hch (by decide) (by decide) (by decide) (by decide +kernel))
  | mldsa =>
    rw [hf] at hch
    cases k <;> first
      | (cases hch; done)
      | (exact ops hch (by decide) (by decide) (by decide) (by decide +kernel))
  | slhdsa =>
    rw [hf] at hch
    cases k <;> first
      | (cases hch; done)
      | (exact ops hch (by decide) (by decide) (by decide) (by decide +kernel))
  | hmac kt =>
    rw [hf] at hch
    have hx : hmacCheck o kt (usage k) = .ok () := by
      cases k <;> first | (cases hch; done) | exact hch
    obtain ⟨F, hF⟩ := hM m kt hf
    rcases hmacCheck_ok hx with hx | hx
    · exact ops hx (by decide) (by decide) (by decide) (by cases k <;> decide +kernel)
    · refine ops hx ?_ (by decide) (by decide) (secret_showsFor k hF)
      rintro rfl
      rw [unavailable_type] at hF; cases hF
  | tlsMac => exact (hfam hf).elim
  | hotp =>
    rw [hf] at hch
    have hx : hotpCheck o (usage k) = .ok () := by
      cases k <;> first | (cases hch; done) | exact hch
    have hkk : k = .sign ∨ k = .verify := by
      cases k <;> first | (cases hch; done) | simp
    unfold hotpCheck at hx
    split at hx
    · cases hx
    rename_i c hc
    split at hx
    · cases hx
    rename_i kt hkt
    split at hx
    · cases hx
    rename_i hne
    simp only [not_or, Classical.not_not] at hne
    split at hx
    · cases hx
    · rename_i hb
      rw [hne.1] at hc
      rw [hne.2] at hkt
      refine saysTrue_of ht (plain_usage k) (usage_small k) hg hin ho hb
        (F := ⟨.hotp, CKO_OTP_KEY, hotpAttrs⟩)
        ((objFactory_key (by decide) (by decide) hc hkt).trans ?_) ?_
      · rfl
      · rcases hkk with rfl | rfl <;> decide +kernel
    · cases hx
  | digest => rw [hf] at hch; cases hch
  | other => rw [hf] at hch; cases hch

/-- **C25**: C_DigestInit succeeds only if the token offers the mechanism for digesting. -/
theorem C25_digest (d : List (Nat × Db)) (tr : Trace) (e : Env) (h i key m : Nat) (p sig : Bytes)
    (hs : onSlot M C O (after M C O d tr) h i)
    (hok : (step M C O e (after M C O d tr) (.op h (.opInit .digest (some (m, p)) key sig))).1 = .ok) :
    offers M (after M C O d tr) i m CKF_DIGEST := by
  have hi : Inv (after M C O d tr) := inv_reach M O d tr
  generalize after M C O d tr = s at *
  obtain ⟨sl, x, hg, h1, h2⟩ := getSession_live hi ((onSlot_iff hi).1 hs)
  unfold step at hok
  simp only [hg, opStep, if_true, fnInitDigest] at hok
  repeat' split at hok
  all_goals first | (cases hok; done) | (exact offers_of hg (by assumption))

theorem plain_wrap : plainTy CKA_WRAP := plain_of (by decide) (by decide +kernel)
theorem plain_unwrap : plainTy CKA_UNWRAP := plain_of (by decide) (by decide +kernel)
theorem plain_derive : plainTy CKA_DERIVE := plain_of (by decide) (by decide +kernel)
theorem plain_encap : plainTy CKA_ENCAPSULATE := plain_of (by decide) (by decide +kernel)
theorem plain_decap : plainTy CKA_DECAPSULATE := plain_of (by decide) (by decide +kernel)

/-- **C25**: C_WrapKey, whether it wraps or only tells the length, needs a mechanism offered for wrapping, allowed by the
wrapping key, whose CKA_WRAP is true. -/
theorem C25_wrap (d : List (Nat × Db)) (hd : ∀ p ∈ d, TblOk p.2.objs) (tr : Trace) (e : Env)
    (h i wkey key m : Nat) (p : Bytes) (out : Option Nat) (hs : onSlot M C O (after M C O d tr) h i)
    (hok : refusal (step M C O e (after M C O d tr) (.op h (.wrap m p wkey key out))).1 = false) :
    offers M (after M C O d tr) i m CKF_WRAP ∧ permits M C O (after M C O d tr) h wkey m ∧
      notFalse M C O (after M C O d tr) h wkey CKA_WRAP := by
  have hi : Inv (after M C O d tr) := inv_reach M O d tr
  have ht : TInv (after M C O d tr) := tinv_reach M O hd tr
  generalize after M C O d tr = s at *
  obtain ⟨sl, x, hg, h1, h2⟩ := getSession_live hi ((onSlot_iff hi).1 hs)
  unfold step at hok
  simp only [hg, opStep, fnWrap] at hok
  split at hok
  · cases hok
  split at hok
  · cases hok
  split at hok
  · cases hok
  rename_i w hw
  split at hok
  · cases hok
  rename_i ha
  split at hok
  · cases hok
  split at hok
  · cases hok
  rename_i hm
  split at hok
  · cases hok
  · cases hok
  rename_i hb
  exact ⟨offers_of hg hm, permits_of hi ht hg hw ha, notFalse_of hi ht plain_wrap hg hw hb⟩

/-- **C25**: C_UnwrapKey needs a mechanism offered for unwrapping, allowed by the unwrapping key, whose CKA_UNWRAP is
true. -/
theorem C25_unwrap (d : List (Nat × Db)) (hd : ∀ p ∈ d, TblOk p.2.objs) (tr : Trace) (e : Env)
    (h i key m n : Nat) (p data : Bytes) (tm : Template) (hs : onSlot M C O (after M C O d tr) h i)
    (hok : (step M C O e (after M C O d tr) (.op h (.unwrap m p key data tm))).1 = .handle n) :
    offers M (after M C O d tr) i m CKF_UNWRAP ∧ permits M C O (after M C O d tr) h key m ∧
      notFalse M C O (after M C O d tr) h key CKA_UNWRAP := by
  have hi : Inv (after M C O d tr) := inv_reach M O d tr
  have ht : TInv (after M C O d tr) := tinv_reach M O hd tr
  generalize after M C O d tr = s at *
  obtain ⟨sl, x, hg, h1, h2⟩ := getSession_live hi ((onSlot_iff hi).1 hs)
  unfold step at hok
  simp only [hg, opStep, fnUnwrap] at hok
  split at hok
  · cases hok
  split at hok
  · cases hok
  split at hok
  · cases hok
  rename_i w hw
  split at hok
  · cases hok
  rename_i ha
  split at hok
  · cases hok
  split at hok
  · cases hok
  split at hok
  · cases hok
  · cases hok
  rename_i hb
  split at hok
  · cases hok
  rename_i hm
  exact ⟨offers_of hg hm, permits_of hi ht hg hw ha, notFalse_of hi ht plain_unwrap hg hw hb⟩

/-- **C25, partial**: C_DeriveKey needs a mechanism offered for derivation, allowed by the base key, and, except for
CKM_PUB_KEY_FROM_PRIV_KEY and the two HKDF mechanisms, a base key whose CKA_DERIVE is true (`C25_derive_violation`; for
HKDF the exception is a data object used as salt). -/
theorem C25_derive_partial (d : List (Nat × Db)) (hd : ∀ p ∈ d, TblOk p.2.objs) (tr : Trace) (e : Env)
    (h i key m : Nat) (p : Bytes) (tm : Template) (l : List Nat) (hs : onSlot M C O (after M C O d tr) h i)
    (hok : (step M C O e (after M C O d tr) (.op h (.derive m p key tm))).1 = .handles l) :
    offers M (after M C O d tr) i m CKF_DERIVE ∧ permits M C O (after M C O d tr) h key m ∧
      (m ≠ CKM_PUB_KEY_FROM_PRIV_KEY → m ≠ CKM_HKDF_DERIVE → m ≠ CKM_HKDF_DATA →
        notFalse M C O (after M C O d tr) h key CKA_DERIVE) := by
  have hi : Inv (after M C O d tr) := inv_reach M O d tr
  have ht : TInv (after M C O d tr) := tinv_reach M O hd tr
  generalize after M C O d tr = s at *
  obtain ⟨sl, x, hg, h1, h2⟩ := getSession_live hi ((onSlot_iff hi).1 hs)
  have hok' : ∃ l, (fnDerive M C e h m p key tm x sl.token).1 = .ok l := by
    unfold step at hok
    simp only [hg, opStep] at hok
    cases hq : (fnDerive M C e h m p key tm x sl.token).1 with
    | error r => rw [hq] at hok; cases hok
    | ok l => exact ⟨l, rfl⟩
  obtain ⟨l', hok'⟩ := hok'
  unfold fnDerive at hok'
  split at hok'
  · cases hok'
  split at hok'
  · cases hok'
  split at hok'
  · cases hok'
  rename_i w hw
  split at hok'
  · cases hok'
  rename_i hu
  split at hok'
  · cases hok'
  rename_i ha
  split at hok'
  · cases hok'
  rename_i hm
  refine ⟨offers_of hg hm, permits_of hi ht hg hw ha, fun n1 n2 n3 => ?_⟩
  refine notFalse_of hi ht plain_derive hg hw ?_
  unfold deriveUsage at hu
  simp only [if_neg n1] at hu
  rw [if_neg (by simp [n2, n3])] at hu
  split at hu
  · cases hu
  · assumption
  · cases hu

/-- **C25**: C_EncapsulateKey. -/
theorem C25_encapsulate (d : List (Nat × Db)) (hd : ∀ p ∈ d, TblOk p.2.objs) (tr : Trace) (e : Env)
    (h i key m n : Nat) (tm : Template) (out : Option Nat) (ct : Bytes) (hs : onSlot M C O (after M C O d tr) h i)
    (hok : (step M C O e (after M C O d tr) (.op h (.encapsulate m key tm out))).1 = .handleBytes n ct) :
    offers M (after M C O d tr) i m CKF_ENCAPSULATE ∧ permits M C O (after M C O d tr) h key m ∧
      saysTrue M C O (after M C O d tr) h key CKA_ENCAPSULATE := by
  have hi : Inv (after M C O d tr) := inv_reach M O d tr
  have ht : TInv (after M C O d tr) := tinv_reach M O hd tr
  generalize after M C O d tr = s at *
  obtain ⟨sl, x, hg, h1, h2⟩ := getSession_live hi ((onSlot_iff hi).1 hs)
  unfold step at hok
  simp only [hg, opStep, fnEncap] at hok
  split at hok
  · cases hok
  split at hok
  · cases hok
  rename_i hin
  split at hok
  · cases hok
  rename_i w hw
  split at hok
  · cases hok
  rename_i ha
  split at hok
  · cases hok
  split at hok
  · cases hok
  rename_i hm
  split at hok
  · cases hok
  split at hok
  · cases hok
  split at hok
  · cases hok
  split at hok
  · cases hok
  rename_i hb
  exact ⟨offers_of hg hm, permits_of hi ht hg hw ha,
    saysTrue_ops ht plain_encap (by decide) hg (by simpa using hin) hw hb (by decide) (by decide) (by decide)
      (by decide +kernel)⟩

/-- **C25**: C_DecapsulateKey. -/
theorem C25_decapsulate (d : List (Nat × Db)) (hd : ∀ p ∈ d, TblOk p.2.objs) (tr : Trace) (e : Env)
    (h i key m n : Nat) (data : Bytes) (tm : Template) (hs : onSlot M C O (after M C O d tr) h i)
    (hok : (step M C O e (after M C O d tr) (.op h (.decapsulate m key data tm))).1 = .handle n) :
    offers M (after M C O d tr) i m CKF_DECAPSULATE ∧ permits M C O (after M C O d tr) h key m ∧
      saysTrue M C O (after M C O d tr) h key CKA_DECAPSULATE := by
  have hi : Inv (after M C O d tr) := inv_reach M O d tr
  have ht : TInv (after M C O d tr) := tinv_reach M O hd tr
  generalize after M C O d tr = s at *
  obtain ⟨sl, x, hg, h1, h2⟩ := getSession_live hi ((onSlot_iff hi).1 hs)
  unfold step at hok
  simp only [hg, opStep, fnDecap] at hok
  split at hok
  · cases hok
  split at hok
  · cases hok
  rename_i hin
  split at hok
  · cases hok
  rename_i w hw
  split at hok
  · cases hok
  rename_i ha
  split at hok
  · cases hok
  split at hok
  · cases hok
  rename_i hm
  split at hok
  · cases hok
  rename_i hb
  exact ⟨offers_of hg hm, permits_of hi ht hg hw ha,
    saysTrue_ops ht plain_decap (by decide) hg (by simpa using hin) hw hb (by decide) (by decide) (by decide)
      (by decide +kernel)⟩

/-- **C25**: C_GenerateKey needs a mechanism offered for generation. -/
theorem C25_generate (d : List (Nat × Db)) (tr : Trace) (e : Env) (h i m n : Nat) (p : Bytes) (tm : Template)
    (hs : onSlot M C O (after M C O d tr) h i)
    (hok : (step M C O e (after M C O d tr) (.op h (.generateKey m p tm))).1 = .handle n) :
    offers M (after M C O d tr) i m CKF_GENERATE := by
  have hi : Inv (after M C O d tr) := inv_reach M O d tr
  generalize after M C O d tr = s at *
  obtain ⟨sl, x, hg, h1, h2⟩ := getSession_live hi ((onSlot_iff hi).1 hs)
  unfold step at hok
  simp only [hg, opStep, fnGenKey] at hok
  split at hok
  · cases hok
  split at hok
  · cases hok
  split at hok
  · cases hok
  rename_i hm
  exact offers_of hg hm

/-- **C25**: C_GenerateKeyPair needs a mechanism offered for the generation of pairs. -/
theorem C25_generatePair (d : List (Nat × Db)) (tr : Trace) (e : Env) (h i m : Nat) (p : Bytes) (pub priv : Template)
    (l : List Nat) (hs : onSlot M C O (after M C O d tr) h i)
    (hok : (step M C O e (after M C O d tr) (.op h (.generatePair m p pub priv))).1 = .handles l) :
    offers M (after M C O d tr) i m CKF_GENERATE_KEY_PAIR := by
  have hi : Inv (after M C O d tr) := inv_reach M O d tr
  generalize after M C O d tr = s at *
  obtain ⟨sl, x, hg, h1, h2⟩ := getSession_live hi ((onSlot_iff hi).1 hs)
  have hok' : ∃ l, (fnGenPair M C e h m p pub priv x sl.token).1 = .ok l := by
    unfold step at hok
    simp only [hg, opStep] at hok
    cases hq : (fnGenPair M C e h m p pub priv x sl.token).1 with
    | error r => rw [hq] at hok; cases hok
    | ok l => exact ⟨l, rfl⟩
  obtain ⟨l', hok'⟩ := hok'
  unfold fnGenPair at hok'
  split at hok'
  · cases hok'
  split at hok'
  · cases hok'
  split at hok'
  · cases hok'
  split at hok'
  · cases hok'
  rename_i hm
  exact offers_of hg hm

/-! ## Cases -/

def exAesWith (l : Template) : Template :=
  [.ofUlong CKA_CLASS CKO_SECRET_KEY, .ofUlong CKA_KEY_TYPE CKK_AES, .mk' CKA_VALUE exKeyBytes] ++ l

def exAesIn : Template := [.ofUlong CKA_CLASS CKO_SECRET_KEY, .ofUlong CKA_KEY_TYPE CKK_AES]

/-- An AES key for encryption with one allowed mechanism (8), one with another mechanism (9), one that is not for
encryption (10) and one for wrapping (11). -/
def exC25 : Trace := exStart ++
  [(exEnv 6, .login 1 CKU_USER exPin),
   (exEnv 7, .sess 1 (.createObject (exAesWith
     [.ofBool CKA_ENCRYPT true, .mk' CKA_ALLOWED_MECHANISMS (ulongBytes CKM_AES_ECB)]))),
   (exEnv 8, .sess 1 (.createObject (exAesWith
     [.ofBool CKA_ENCRYPT true, .mk' CKA_ALLOWED_MECHANISMS (ulongBytes CKM_SHA256)]))),
   (exEnv 9, .sess 1 (.createObject (exAesWith [.ofBool CKA_ENCRYPT false]))),
   (exEnv 10, .sess 1 (.createObject (exAesWith [.ofBool CKA_WRAP true, .ofBool CKA_UNWRAP true,
     .ofBool CKA_EXTRACTABLE true])))]

set_option maxRecDepth 10000 in
example : (exOuts (exC25 ++ [(exEnv 11, .op 1 (.opInit .enc (some (CKM_AES_ECB, [])) 9 [])),
   (exEnv 12, .op 1 (.opInit .enc (some (CKM_AES_ECB, [])) 10 [])),
   (exEnv 13, .op 1 (.opInit .enc (some (CKM_SHA256, [])) 8 [])),
   (exEnv 14, .op 1 (.opInit .enc (some (CKM_AES_ECB, [])) 8 [])),
   (exEnv 15, .op 1 (.wrap CKM_AES_ECB [] 11 11 (some 100))),
   (exEnv 15, .op 1 (.wrap CKM_AES_ECB [] 11 8 (some 100))),
   (exEnv 15, .op 1 (.wrap CKM_AES_ECB [] 8 11 (some 100))),
   (exEnv 16, .op 1 (.unwrap CKM_AES_ECB [] 11 exKeyBytes exAesIn))])).drop 6 =
  [.ok, .handle 8, .handle 9, .handle 10, .handle 11, .err .mechanismInvalid, .err .keyFunctionNotPermitted,
   .err .mechanismInvalid, .ok, .bytes exKeyBytes, .err .keyUnextractable, .err .wrappingKeyHandleInvalid,
   .handle 12] := by decide +kernel

theorem exMechs_hmac : HmacTypes exMechs := by
  intro m kt h
  simp only [exMechs] at h
  repeat' split at h
  all_goals cases h

/-- Mechanisms that also derive and make pairs, and have a TLS MAC. -/
def exMechs2 : Mechs := { exMechs with
  fam := fun m => if m = CKM_TLS_MAC then .tlsMac else exMechs.fam m
  derive := fun e _ _ _ _ _ => .ok [okObj (factoriesCreate exOracle e.uid exAesTemplate)]
  genPair := fun e _ _ _ _ => .ok (okObj (factoriesCreate exOracle (e.sub 0).uid exAesTemplate),
    okObj (factoriesCreate exOracle (e.sub 1).uid exAesTemplate))
  encapsulate := fun _ _ => .ok (exKeyBytes, [1]) }

def exConf2 : List (Nat × TokCfg) :=
  [(7, ⟨[CKM_TLS_MAC, CKM_PUB_KEY_FROM_PRIV_KEY, CKM_ML_KEM, CKM_AES_KEY_GEN, CKM_TLS_KDF, CKM_EC_KEY_PAIR_GEN], none, none⟩)]

/-- A generic secret that may derive but not sign (12), an EC key that may not derive (13), an ML-KEM pair
(14 and 15). -/
def exC25b : Trace :=
  [(exEnv 0, .initialize exConf2), (exEnv 1, .initToken 7 exSoPin none),
   (exEnv 2, .openSession 7 (CKF_RW_SESSION ||| CKF_SERIAL_SESSION)),
   (exEnv 3, .login 1 CKU_SO exSoPin), (exEnv 4, .sess 1 (.initPin exPin)), (exEnv 5, .logout 1),
   (exEnv 6, .login 1 CKU_USER exPin),
   (exEnv 7, .sess 1 (.createObject [.ofUlong CKA_CLASS CKO_SECRET_KEY, .ofUlong CKA_KEY_TYPE CKK_GENERIC_SECRET,
     .mk' CKA_VALUE [1, 2, 3], .ofBool CKA_SIGN false, .ofBool CKA_DERIVE true])),
   (exEnv 8, .sess 1 (.createObject (exEcTemplate [6] ++ [.ofBool CKA_DERIVE false]))),
   (exEnv 9, .sess 1 (.createObject [.ofUlong CKA_CLASS CKO_PUBLIC_KEY, .ofUlong CKA_KEY_TYPE CKK_ML_KEM,
     .ofUlong CKA_PARAMETER_SET CKP_ML_KEM_512, .mk' CKA_VALUE [1], .ofBool CKA_ENCAPSULATE true])),
   (exEnv 10, .sess 1 (.createObject [.ofUlong CKA_CLASS CKO_PRIVATE_KEY, .ofUlong CKA_KEY_TYPE CKK_ML_KEM,
     .ofUlong CKA_PARAMETER_SET CKP_ML_KEM_512, .mk' CKA_VALUE [1], .ofBool CKA_DECAPSULATE true]))]

def exOuts2 (tr : Trace) : List Out := outs exMechs2 exCrypto exOracle (St.init []) tr

set_option maxRecDepth 10000 in
example : (exOuts2 (exC25b ++ [
   (exEnv 11, .op 1 (.derive CKM_TLS_KDF [] 12 [])),
   (exEnv 11, .op 1 (.derive CKM_TLS_KDF [] 13 [])),
   (exEnv 12, .op 1 (.encapsulate CKM_ML_KEM 14 exAesIn (some 20))),
   (exEnv 13, .op 1 (.decapsulate CKM_ML_KEM 15 exKeyBytes exAesIn)),
   (exEnv 14, .op 1 (.generateKey CKM_AES_KEY_GEN [] (exAesIn ++ [.ofUlong CKA_VALUE_LEN 16]))),
   (exEnv 15, .op 1 (.generatePair CKM_EC_KEY_PAIR_GEN [] [] []))])).drop 6 =
  [.ok, .handle 12, .handle 13, .handle 14, .handle 15, .handles [16], .err .keyFunctionNotPermitted,
   .handleBytes 17 [1], .handle 18, .handle 19, .handles [20, 21]] := by decide +kernel

/-! ## What does not hold -/

set_option maxRecDepth 10000 in
/-- **Counterexample**: C_SignInit with CKM_TLS_MAC succeeds with a key whose CKA_SIGN is false: CKA_DERIVE is looked at
instead (`src/tlskdf.rs:101-139`). -/
theorem C25_tls_violation : ∃ (tr : Trace) (h key : Nat) (e : Env) (p sig : Bytes),
    reports exMechs2 exCrypto exOracle (after exMechs2 exCrypto exOracle [] tr) h key CKA_SIGN [0] ∧
    (step exMechs2 exCrypto exOracle e (after exMechs2 exCrypto exOracle [] tr)
      (.op h (.opInit .sign (some (CKM_TLS_MAC, p)) key sig))).1 = .ok :=
  ⟨exC25b, 1, 12, exEnv 11, [], [],
    ⟨exEnv 0, ⟨CKA_SIGN, false, 1, [9]⟩, ⟨CKA_SIGN, false, 1, [0]⟩, rfl, rfl, by decide +kernel, rfl⟩,
    by decide +kernel⟩

set_option maxRecDepth 10000 in
/-- **Counterexample**: C_DeriveKey with CKM_PUB_KEY_FROM_PRIV_KEY succeeds with a key whose CKA_DERIVE is false
(`src/fns/keymgmt.rs:532-541`). -/
theorem C25_derive_violation : ∃ (tr : Trace) (h key n : Nat) (e : Env) (p : Bytes) (tm : Template),
    reports exMechs2 exCrypto exOracle (after exMechs2 exCrypto exOracle [] tr) h key CKA_DERIVE [0] ∧
    (step exMechs2 exCrypto exOracle e (after exMechs2 exCrypto exOracle [] tr)
      (.op h (.derive CKM_PUB_KEY_FROM_PRIV_KEY p key tm))).1 = .handles [n] :=
  ⟨exC25b, 1, 13, 16, exEnv 11, [], [],
    ⟨exEnv 0, ⟨CKA_DERIVE, false, 1, [9]⟩, ⟨CKA_DERIVE, false, 1, [0]⟩, rfl, rfl, by decide +kernel, rfl⟩,
    by decide +kernel⟩

end Kry
