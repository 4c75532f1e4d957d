import Verif.Model.Hkdf
import Verif.Props.C62
import Verif.Proofs.Orderly

/-!
# C65: HKDF

`C65_value`: the derived object holds the bytes of RFC 5869 for the parameters, of the length in the template.  `C65_kind_partial`: with a
CKA_VALUE_LEN in the template CKM_HKDF_DERIVE gives a secret key with an honest history; CKM_HKDF_DATA gives data.  `C65_base`: which objects
may be used.  `C65_once`.  `C65_data`: the bytes of every derived key can be had as data.  Violations: `C65_class_violation` (a private
RSA key whose value is a secret), `C65_size_violation` (AES keys of any hash size), `C65_short_violation` (pseudo-random keys of one
byte), `C65_flag_violation` (extraction skipped).

OpenSSL's HKDF is assumed to be RFC 5869 (`Spec.HkdfOk`).
-/

namespace Kry
namespace Spec

/-- RFC 5869, 2.3: T(n) = HMAC(PRK, T(n-1) || info || n), T(0) empty. -/
def hkdfT (a : HashAlg) (prk info : Bytes) : Nat → Bytes
  | 0 => []
  | n + 1 => hmac a prk (hkdfT a prk info n ++ info ++ [UInt8.ofNat (n + 1)])

/-- T(1) || ... || T(n). -/
def hkdfStream (a : HashAlg) (prk info : Bytes) : Nat → Bytes
  | 0 => []
  | n + 1 => hkdfStream a prk info n ++ hkdfT a prk info (n + 1)

/-- `out` is HKDF-Expand(PRK, info, out.length). -/
def IsExpand (a : HashAlg) (prk info out : Bytes) : Prop :=
  ∃ n, n ≤ 255 ∧ out.length ≤ n * a.hlen ∧ out <+: hkdfStream a prk info n

/-- What OpenSSL is assumed to do: RFC 5869 (extract is HMAC(salt, IKM)), or fail. -/
structure HkdfOk (lib : HkdfLib) : Prop where
  extract : ∀ a k s i n out, lib .extract a k (some s) i n = .ok out → out = hmac a s k ∧ out.length = n
  expand : ∀ a k s i n out, lib .expand a k s i n = .ok out → IsExpand a k (i.getD []) out ∧ out.length = n
  both : ∀ a k s i n out, lib .both a k (some s) i n = .ok out → IsExpand a (hmac a s k) (i.getD []) out ∧ out.length = n

/-- The lengths of the parameter are those of the buffers, the flags are CK_TRUE or CK_FALSE. -/
structure HkdfClean (p : HkdfParams) : Prop where
  salt : ∀ s, p.salt = some s → p.saltLen = s.length
  info : ∀ s, p.info = some s → p.infoLen = s.length
  noInfo : p.info = none → p.infoLen = 0
  extract : p.extract = 0 ∨ p.extract = 1
  expand : p.expand = 0 ∨ p.expand = 1

/-- The salt that the parameter means. -/
inductive SaltOf (hlen : Nat) (p : HkdfParams) (saltKey : Obj) : Bytes → Prop
  | null : p.saltType = CKF_HKDF_SALT_NULL → SaltOf hlen p saltKey (List.replicate hlen 0)
  | data (s : Bytes) : p.saltType = CKF_HKDF_SALT_DATA → p.salt = some s → SaltOf hlen p saltKey s
  | key (s : Bytes) : p.saltType = CKF_HKDF_SALT_KEY → value saltKey CKA_VALUE = some s → SaltOf hlen p saltKey s

end Spec

open Spec

theorem ulong_told {o : Obj} {t n : Nat} (h : o.getUlong t = .ok n) : HasUlong o t n := by
  unfold Obj.getUlong at h
  split at h; · cases h
  rename_i a ha
  unfold HasUlong
  rw [value_eq, ha]
  unfold Attr.toUlong at h
  split at h; · cases h
  split at h; · cases h
  rename_i h8
  injection h with h
  subst h
  exact congrArg some (ulongBytes_fromLE _ (by simpa using h8)).symm

theorem getBytes_value {o : Obj} {v : Bytes} (h : o.getBytes CKA_VALUE = .ok v) : value o CKA_VALUE = some v := by
  unfold Obj.getBytes at h
  split at h; · cases h
  rename_i a ha
  rw [value_eq, ha]
  unfold Attr.toBytes at h
  split at h; · cases h
  injection h with h
  rw [← h]; rfl

/-- What a successful call did. -/
theorem hkdf_shape {lib : HkdfLib} {algs : Nat → HashAlg} {O : Oracle} {uid : Bytes} {mech : Nat} {p : HkdfParams} {salt key : Obj} {t : Template}
    {out : List Obj} (h : hkdfCall lib algs O uid mech p salt key t = .ok out) :
    ∃ k s o n v dkm, hkdfGate algs p key = .ok () ∧ Hkdf.new algs mech p = .ok k ∧
      (if k.wantsSalt then k.receive salt else .ok k) = .ok { k with salt := s } ∧
      Hkdf.verifyKey { k with salt := s } key k.prflen = .ok () ∧ (s.isNone → k.mode = .expand) ∧
      (if k.isData then commonDeriveData k.prflen O uid t else commonDeriveKey k.prflen uid key t) = .ok (o, n) ∧
      (k.mode = .extract → n = k.prflen) ∧ (0 < n ∧ n < 2 ^ 32) ∧ key.getBytes CKA_VALUE = .ok v ∧ lib k.mode (algs k.prf) v s k.info n = .ok dkm ∧
      out = [o.put (Attr.ofBytes CKA_VALUE dkm)] := by
  unfold hkdfCall at h
  split at h; · cases h
  rename_i hg
  split at h; · cases h
  rename_i k hk
  split at h; · cases h
  rename_i k' hk'
  have e : ∃ s, k' = { k with salt := s } := by
    split at hk'
    · unfold Hkdf.receive at hk'
      split at hk'; · cases hk'
      split at hk'; · cases hk'
      injection hk' with hk'
      exact ⟨_, hk'.symm⟩
    · injection hk' with hk'
      exact ⟨k.salt, hk'.symm⟩
  obtain ⟨s, rfl⟩ := e
  have hf : k.fin = false := by
    unfold Hkdf.new at hk
    repeat' split at hk
    all_goals first | (cases hk; done) | (injection hk with hk; rw [← hk])
  unfold Hkdf.derive at h
  simp only [hf, Bool.false_eq_true, if_false] at h
  unfold hkdfDerive at h
  split at h; · cases h
  rename_i hv
  split at h
  · split at h <;> cases h
  rename_i hs
  split at h; · cases h
  rename_i o n ho
  split at h; · cases h
  rename_i he
  split at h; · cases h
  rename_i hn
  split at h; · cases h
  rename_i v hb
  split at h; · cases h
  rename_i dkm hd
  injection h with h
  refine ⟨k, s, o, n, v, dkm, hg, hk, hk', hv, ?_, ho, ?_, by omega, hb, hd, h.symm⟩
  · intro q
    exact Classical.byContradiction fun q' => hs ⟨q, q'⟩
  · intro q
    exact Classical.byContradiction fun q' => he ⟨q, q'⟩

/-- What `new` keeps of the parameter. -/
theorem hkdfNew_ok {algs : Nat → HashAlg} {mech : Nat} {p : HkdfParams} {k : Hkdf} (hc : HkdfClean p) (h : Hkdf.new algs mech p = .ok k) :
    k.prf = p.prf ∧ k.prflen = (algs p.prf).hlen ∧ k.saltType = p.saltType ∧ k.info.getD [] = p.info.getD [] ∧
      hkdfSalt p (algs p.prf).hlen = .ok k.salt ∧
      ((mech = CKM_HKDF_DERIVE ∧ k.isData = false) ∨ (mech = CKM_HKDF_DATA ∧ k.isData = true)) ∧
      ((p.extract = 1 ∧ p.expand = 1 ∧ k.mode = .both) ∨ (p.extract = 1 ∧ p.expand = 0 ∧ k.mode = .extract) ∨
        (p.extract = 0 ∧ p.expand = 1 ∧ k.mode = .expand)) := by
  unfold Hkdf.new at h
  split at h; · cases h
  rename_i hm
  split at h; · cases h
  rename_i hf
  split at h; · cases h
  split at h; · cases h
  split at h; · cases h
  split at h; · cases h
  rename_i s hs
  injection h with h
  subst h
  refine ⟨rfl, rfl, rfl, ?_, hs, ?_, ?_⟩
  · show (if p.infoLen > 0 then some ((p.info.getD []).take p.infoLen) else none).getD [] = _
    cases hi : p.info with
    | none => rw [hc.noInfo hi]; rfl
    | some i =>
      rw [hc.info i hi]
      by_cases c : i.length > 0
      · rw [if_pos c]; simp
      · rw [if_neg c]
        have : i = [] := List.eq_nil_of_length_eq_zero (by omega)
        rw [this]; rfl
  · by_cases e : mech = CKM_HKDF_DERIVE
    · exact .inl ⟨e, by rw [e]; rfl⟩
    · have e2 : mech = CKM_HKDF_DATA := Classical.byContradiction fun e2 => hm ⟨e, e2⟩
      exact .inr ⟨e2, by rw [e2]; rfl⟩
  · rcases hc.extract with e | e <;> rcases hc.expand with e' | e' <;> simp [e, e'] at hf ⊢

/-- The salt of a successful call is the one that the parameter means. -/
theorem hkdf_saltOf {algs : Nat → HashAlg} {mech : Nat} {p : HkdfParams} {k : Hkdf} {salt : Obj} {s : Bytes} (hc : HkdfClean p)
    (h : Hkdf.new algs mech p = .ok k)
    (hs : (if k.wantsSalt then k.receive salt else .ok k) = .ok { k with salt := some s }) :
    SaltOf (algs p.prf).hlen p salt s := by
  obtain ⟨_, _, k3, _, k5, _⟩ := hkdfNew_ok hc h
  unfold Hkdf.wantsSalt at hs
  rw [k3] at hs
  by_cases c : p.saltType = CKF_HKDF_SALT_KEY
  · rw [if_pos (by rw [c]; rfl)] at hs
    unfold Hkdf.receive at hs
    split at hs; · cases hs
    split at hs; · cases hs
    rename_i v hv
    injection hs with hs
    have := congrArg Hkdf.salt hs
    simp only [Option.some.injEq] at this
    subst this
    exact .key v c (getBytes_value hv)
  · rw [if_neg (by simpa using c)] at hs
    injection hs with hs
    have := congrArg Hkdf.salt hs
    simp only at this
    rw [this] at k5
    unfold hkdfSalt at k5
    split at k5
    · rename_i c1
      split at k5; · cases k5
      injection k5 with k5
      injection k5 with k5
      subst k5
      exact .null c1
    split at k5
    · rename_i c1
      split at k5; · cases k5
      rename_i w hw
      split at k5; · cases k5
      injection k5 with k5
      injection k5 with k5
      rw [hc.salt w hw, List.take_length] at k5
      subst k5
      exact .data w c1 hw
    repeat' split at k5
    all_goals cases k5

/-- With a length in the template the default length plays no part. -/
theorem commonKey_told {uid : Bytes} {key : Obj} {t : Template} {o : Obj} {dl n : Nat} {c : CkAttr} (hc : c ∈ t) (ht : c.typ = CKA_VALUE_LEN)
    (h : commonDeriveKey dl uid key t = .ok (o, n)) : commonDeriveKey 0 uid key t = .ok (o, n) := by
  unfold commonDeriveKey at h ⊢
  split at h; · cases h
  rename_i o1 h1
  simp only
  split at h
  · rename_i r hr
    exfalso
    unfold deriveKeyFromTemplate at h1
    split at h1; · cases h1
    rename_i F hF
    split at h1
    · obtain ⟨kk, hkk⟩ := keyTemplateFactory_mem hF
      obtain ⟨o0, h0, hf⟩ := keyDerive_same h1
      obtain ⟨a, a1, a2⟩ := derive_given hkk h1 (by decide) (by decide) notIgnored_valueLen (mem_addMissingUlong hc) ht
      have hor := orderly_internal hkk h0
      unfold Obj.getUlong at hr
      rw [value_eq] at a2
      split at hr
      · rename_i hn; rw [hn] at a2; cases a2
      · rename_i b hb
        rw [hf _ (by decide)] at hb
        have ht := find_typ hb
        have := (hor.neat b (find_mem hb)).2 (by rw [ht]; decide +kernel)
        unfold Attr.toUlong at hr
        rw [if_neg (by simp [this.1]), if_neg (by simp [this.2, ulongSize])] at hr
        cases hr
    · cases h1
  · rename_i m hm
    exact h

/-! ## The property -/

/-- **C65**: the value is that of RFC 5869 for the parameter, of the length in the template. -/
theorem C65_value (lib : HkdfLib) (algs : Nat → HashAlg) (O : Oracle) (uid : Bytes) (mech : Nat) (p : HkdfParams) (salt key : Obj) (t : Template)
    (out : List Obj) (secret : Bytes) (hl : HkdfOk lib) (hc : HkdfClean p) (h : hkdfCall lib algs O uid mech p salt key t = .ok out)
    (hv : value key CKA_VALUE = some secret) :
    ∃ o v, out = [o] ∧ value o CKA_VALUE = some v ∧ 0 < v.length ∧ (∀ c ∈ t, c.typ = CKA_VALUE_LEN → c.toUlong = .ok v.length) ∧
      ((p.extract = 1 ∧ p.expand = 0 ∧ ∃ s, SaltOf (algs p.prf).hlen p salt s ∧ v = hmac (algs p.prf) s secret) ∨
       (p.extract = 1 ∧ p.expand = 1 ∧ ∃ s, SaltOf (algs p.prf).hlen p salt s ∧
          IsExpand (algs p.prf) (hmac (algs p.prf) s secret) (p.info.getD []) v) ∨
       (p.extract = 0 ∧ p.expand = 1 ∧ IsExpand (algs p.prf) secret (p.info.getD []) v)) := by
  obtain ⟨k, s, o, n, w, dkm, _, hk, hs, _, hn, ho, _, h0, hw, hd, rfl⟩ := hkdf_shape h
  obtain ⟨k1, k2, k3, k4, k5, k6, k7⟩ := hkdfNew_ok hc hk
  have := value_getBytes hw hv
  subst this
  rw [k1] at hd
  have core : dkm.length = n ∧
      ((p.extract = 1 ∧ p.expand = 0 ∧ ∃ s, SaltOf (algs p.prf).hlen p salt s ∧ dkm = hmac (algs p.prf) s w) ∨
       (p.extract = 1 ∧ p.expand = 1 ∧ ∃ s, SaltOf (algs p.prf).hlen p salt s ∧
          IsExpand (algs p.prf) (hmac (algs p.prf) s w) (p.info.getD []) dkm) ∨
       (p.extract = 0 ∧ p.expand = 1 ∧ IsExpand (algs p.prf) w (p.info.getD []) dkm)) := by
    rcases k7 with ⟨e1, e2, m⟩ | ⟨e1, e2, m⟩ | ⟨e1, e2, m⟩ <;> rw [m] at hd hn
    · cases s with
      | none => exact absurd (hn rfl) (by decide)
      | some s =>
        obtain ⟨q1, q2⟩ := hl.both _ _ _ _ _ _ hd
        rw [k4] at q1
        exact ⟨q2, .inr (.inl ⟨e1, e2, s, hkdf_saltOf hc hk hs, q1⟩)⟩
    · cases s with
      | none => exact absurd (hn rfl) (by decide)
      | some s =>
        obtain ⟨q1, q2⟩ := hl.extract _ _ _ _ _ _ hd
        exact ⟨q2, .inl ⟨e1, e2, s, hkdf_saltOf hc hk hs, q1⟩⟩
    · obtain ⟨q1, q2⟩ := hl.expand _ _ _ _ _ _ hd
      rw [k4] at q1
      exact ⟨q2, .inr (.inr ⟨e1, e2, q1⟩)⟩
  obtain ⟨q1, q2⟩ := core
  refine ⟨_, dkm, rfl, putVal_value o dkm, by omega, ?_, q2⟩
  intro c hct ht
  rw [q1]
  split at ho
  · exact (commonData_ok ho).1 c hct ht
  · exact (commonKey_ok (commonKey_told hct ht ho)).1 c hct ht

/-- Two outputs of the same length for the same inputs are the same. -/
theorem hkdfT_length {a : HashAlg} (ha : HashOk a) (prk info : Bytes) (n : Nat) : (hkdfT a prk info (n + 1)).length = a.hlen := by
  rw [hkdfT]; exact prf_hmac_length ha _ _

theorem hkdfStream_prefix (a : HashAlg) (prk info : Bytes) (n m : Nat) : hkdfStream a prk info n <+: hkdfStream a prk info (n + m) := by
  induction m with
  | zero => exact List.prefix_refl _
  | succ m ih => exact ih.trans ⟨hkdfT a prk info (n + m + 1), rfl⟩

theorem expand_unique {a : HashAlg} {prk info x y : Bytes} (hx : IsExpand a prk info x) (hy : IsExpand a prk info y)
    (hl : x.length = y.length) : x = y := by
  obtain ⟨n, _, _, hx⟩ := hx
  obtain ⟨m, _, _, hy⟩ := hy
  have h1 := hx.trans (hkdfStream_prefix a prk info n m)
  have h2 := hy.trans (hkdfStream_prefix a prk info m n)
  rw [Nat.add_comm] at h2
  rw [List.prefix_iff_eq_take.mp h1, List.prefix_iff_eq_take.mp h2, hl]

/-- **C65** (with a length in the template for CKM_HKDF_DERIVE): what kind of object it is; a key says how long it is and does not claim a better
history than the base key. -/
theorem C65_kind_partial (lib : HkdfLib) (algs : Nat → HashAlg) (O : Oracle) (uid : Bytes) (mech : Nat) (p : HkdfParams) (salt key : Obj) (t : Template)
    (out : List Obj) (hl : HkdfOk lib) (hc : HkdfClean p) (h : hkdfCall lib algs O uid mech p salt key t = .ok out) :
    (mech = CKM_HKDF_DERIVE ∨ mech = CKM_HKDF_DATA) ∧
    ∀ o ∈ out, (mech = CKM_HKDF_DATA → HasUlong o CKA_CLASS CKO_DATA) ∧
      (mech = CKM_HKDF_DERIVE → (∃ c ∈ t, c.typ = CKA_VALUE_LEN) →
        (HasUlong o CKA_CLASS CKO_SECRET_KEY ∨ HasUlong o CKA_CLASS CKO_OTP_KEY) ∧
        (∃ v, value o CKA_VALUE = some v ∧ value o CKA_VALUE_LEN = some (toLE 8 v.length)) ∧
        (IsTrue o CKA_ALWAYS_SENSITIVE → IsTrue key CKA_ALWAYS_SENSITIVE ∧ IsTrue o CKA_SENSITIVE) ∧
        (IsTrue o CKA_NEVER_EXTRACTABLE → IsTrue key CKA_NEVER_EXTRACTABLE ∧ IsFalse o CKA_EXTRACTABLE)) := by
  obtain ⟨k, s, o, n, w, dkm, _, hk, hs, _, hn, ho, _, h0, hw, hd, rfl⟩ := hkdf_shape h
  obtain ⟨k1, k2, k3, k4, k5, k6, k7⟩ := hkdfNew_ok hc hk
  refine ⟨k6.imp (·.1) (·.1), ?_⟩
  intro o' ho'
  have := List.mem_singleton.mp ho'
  subst this
  have hlen : dkm.length = n := by
    rcases k7 with ⟨e1, e2, m⟩ | ⟨e1, e2, m⟩ | ⟨e1, e2, m⟩ <;> rw [m] at hd hn
    · cases s with
      | none => exact absurd (hn rfl) (by decide)
      | some s => exact (hl.both _ _ _ _ _ _ hd).2
    · cases s with
      | none => exact absurd (hn rfl) (by decide)
      | some s => exact (hl.extract _ _ _ _ _ _ hd).2
    · exact (hl.expand _ _ _ _ _ _ hd).2
  rcases k6 with ⟨e, d⟩ | ⟨e, d⟩
  · rw [d, if_neg (by decide)] at ho
    refine ⟨fun e' => absurd (e.symm.trans e') (by decide), fun _ hcl => ?_⟩
    obtain ⟨c, hct, ht⟩ := hcl
    obtain ⟨_, c2, c3, c4, c5⟩ := commonKey_ok (commonKey_told hct ht ho)
    unfold HasUlong IsTrue IsFalse at *
    rw [putVal_other o dkm (u := CKA_CLASS) (by decide), putVal_other o dkm (u := CKA_VALUE_LEN) (by decide),
      putVal_other o dkm (u := CKA_ALWAYS_SENSITIVE) (by decide), putVal_other o dkm (u := CKA_NEVER_EXTRACTABLE) (by decide),
      putVal_other o dkm (u := CKA_SENSITIVE) (by decide), putVal_other o dkm (u := CKA_EXTRACTABLE) (by decide)]
    exact ⟨c3, ⟨dkm, putVal_value o dkm, by rw [hlen]; exact c2⟩, c4, c5⟩
  · rw [d, if_pos rfl] at ho
    refine ⟨fun _ => by unfold HasUlong; rw [putVal_other o dkm (by decide)]; exact (commonData_ok ho).2, fun e' => absurd (e.symm.trans e') (by decide)⟩

theorem keyOps_op {o : Obj} {cls kt op : Nat} (h : o.checkKeyOps cls kt op = .ok ()) : o.getBool op = .ok true := by
  unfold Obj.checkKeyOps at h
  repeat' split at h
  all_goals first | (cases h; done) | assumption | (simp_all; done)

/-- `o` is a secret key made for this: generic or HKDF, with CKA_DERIVE. -/
def HkdfKey (o : Obj) : Prop :=
  HasUlong o CKA_CLASS CKO_SECRET_KEY ∧ (HasUlong o CKA_KEY_TYPE CKK_GENERIC_SECRET ∨ HasUlong o CKA_KEY_TYPE CKK_HKDF) ∧ IsTrue o CKA_DERIVE

theorem hkdfVerify_ok {k : Hkdf} {key : Obj} {m : Nat} (h : k.verifyKey key m = .ok ()) :
    HkdfKey key ∨ (HasUlong key CKA_CLASS CKO_DATA ∧ k.mode ≠ .expand ∧ k.saltType ≠ CKF_HKDF_SALT_NULL ∧ k.salt.isNone = false) := by
  unfold Hkdf.verifyKey at h
  simp only at h
  split at h; · cases h
  rename_i hu
  clear h
  split at hu; · cases hu
  rename_i c hc
  split at hu
  · rename_i e
    subst e
    split at hu; · cases hu
    rename_i kt hkt
    split at hu
    · rename_i e
      refine .inl ⟨ulong_told hc, ?_, getBool_true_iff (keyOps_op hu)⟩
      rcases e with e | e
      · exact .inl (e ▸ ulong_told hkt)
      · exact .inr (e ▸ ulong_told hkt)
    · cases hu
  · split at hu
    · rename_i e
      subst e
      split at hu; · cases hu
      rename_i hn
      refine .inr ⟨ulong_told hc, fun q => hn (.inl q), fun q => hn (.inr (.inl q)), ?_⟩
      cases hs : k.salt.isNone with
      | false => rfl
      | true => exact absurd (.inr (.inr hs)) hn
    · cases hu

/-- **C65**: the base key is a secret key made for derivation, or, when extracting with a salt, data of the length of the hash; a salt key is a
secret key made for derivation. -/
theorem C65_base (lib : HkdfLib) (algs : Nat → HashAlg) (O : Oracle) (uid : Bytes) (mech : Nat) (p : HkdfParams) (salt key : Obj) (t : Template)
    (out : List Obj) (hc : HkdfClean p) (ho : Orderly key) (h : hkdfCall lib algs O uid mech p salt key t = .ok out) :
    (HkdfKey key ∨ (HasUlong key CKA_CLASS CKO_DATA ∧ p.extract = 1 ∧ (p.saltType = CKF_HKDF_SALT_DATA ∨ p.saltType = CKF_HKDF_SALT_KEY) ∧
      ∃ v, value key CKA_VALUE = some v ∧ v.length = (algs p.prf).hlen)) ∧
    (p.saltType = CKF_HKDF_SALT_KEY → HkdfKey salt) := by
  obtain ⟨k, s, o, n, w, dkm, hg, hk, hs, hvk, _⟩ := hkdf_shape h
  obtain ⟨k1, k2, k3, k4, k5, k6, k7⟩ := hkdfNew_ok hc hk
  constructor
  · rcases hkdfVerify_ok hvk with q | ⟨q1, q2, q3, q4⟩
    · exact .inl q
    · refine .inr ⟨q1, ?_⟩
      have hcls : key.cls = CKO_DATA := by
        obtain ⟨a, ha, hu⟩ := ho.cls
        unfold HasUlong at q1
        rw [value_eq, ha] at q1
        injection q1 with q1
        unfold Attr.toUlong at hu
        split at hu; · cases hu
        split at hu; · cases hu
        injection hu with hu
        rw [← hu, q1]; decide
      unfold hkdfGate at hg
      rw [if_pos hcls] at hg
      split at hg; · cases hg
      rename_i he
      split at hg; · cases hg
      rename_i v hv
      split at hg; · cases hg
      rename_i hl
      refine ⟨?_, ?_, v, getBytes_value hv, ?_⟩
      · rcases hc.extract with e | e
        · exact absurd e he
        · exact e
      · split at hg
        · rename_i c; exact .inl c
        · split at hg
          · rename_i c; exact .inr c
          · cases hg
      · exact Classical.byContradiction fun q => hl (.inr fun e => q e.symm)
  · intro e
    rw [show k.wantsSalt = true by unfold Hkdf.wantsSalt; rw [k3, e]; rfl, if_pos rfl] at hs
    unfold Hkdf.receive at hs
    split at hs; · cases hs
    rename_i hvs
    rcases hkdfVerify_ok hvs with q | ⟨_, _, _, q⟩
    · exact q
    · have : k.salt = none := by
        unfold hkdfSalt at k5
        rw [e, if_neg (by decide), if_neg (by decide), if_pos rfl] at k5
        injection k5 with k5
        exact k5.symm
      rw [this] at q
      cases q

/-- **C65**: once. -/
theorem C65_once (k : Hkdf) (lib : HkdfLib) (algs : Nat → HashAlg) (O : Oracle) (uid uid' : Bytes) (key key' : Obj) (t t' : Template) :
    (((k.derive lib algs O uid key t).2).derive lib algs O uid' key' t').1 = .error .operationNotInitialized := by
  unfold Hkdf.derive
  by_cases h : k.fin = true
  · simp [h]
  · simp [h]

/-! ## Examples and violations -/

/-- HKDF as in the RFC, for the examples. -/
def exHkdfExpand (a : HashAlg) (prk info : Bytes) (n : Nat) : Res Bytes :=
  let c := (n + a.hlen - 1) / a.hlen
  let out := (hkdfStream a prk info c).take n
  if c ≤ 255 ∧ n ≤ c * a.hlen ∧ out.length = n then .ok out else .error .deviceError

def exHkdfLib : HkdfLib := fun m a k s i n =>
  match m with
  | .extract => match s with
    | none => .error .deviceError
    | some s => if (hmac a s k).length = n then .ok (hmac a s k) else .error .deviceError
  | .expand => exHkdfExpand a k (i.getD []) n
  | .both => match s with
    | none => .error .deviceError
    | some s => exHkdfExpand a (hmac a s k) (i.getD []) n

theorem exHkdfExpand_ok {a : HashAlg} {prk info out : Bytes} {n : Nat} (h : exHkdfExpand a prk info n = .ok out) :
    IsExpand a prk info out ∧ out.length = n := by
  unfold exHkdfExpand at h
  simp only at h
  split at h
  · rename_i c
    injection h with h
    subst h
    exact ⟨⟨_, c.1, by rw [c.2.2]; exact c.2.1, List.take_prefix _ _⟩, c.2.2⟩
  · cases h

/-- There is a library as assumed. -/
theorem exHkdfLib_ok : HkdfOk exHkdfLib where
  extract a k s i n out h := by
    unfold exHkdfLib at h
    simp only at h
    split at h
    · rename_i c
      injection h with h
      subst h
      exact ⟨rfl, c⟩
    · cases h
  expand _ _ _ _ _ _ h := exHkdfExpand_ok h
  both _ _ _ _ _ _ h := exHkdfExpand_ok h

def exHkdfParams (extract expand : UInt8) (salt : Bytes) : HkdfParams := ⟨extract, expand, CKM_SHA256, CKF_HKDF_SALT_DATA, some salt, salt.length, 0, some [7], 1⟩

theorem exHkdfParams_clean : HkdfClean (exHkdfParams 1 1 [1, 2]) ∧ HkdfClean (exHkdfParams 1 0 [1, 2]) ∧ HkdfClean (exHkdfParams 0 1 [1, 2]) := by
  refine ⟨⟨?_, ?_, ?_, ?_, ?_⟩, ⟨?_, ?_, ?_, ?_, ?_⟩, ⟨?_, ?_, ?_, ?_, ?_⟩⟩ <;> simp [exHkdfParams]

def exHkdf (mech : Nat) (p : HkdfParams) (t : Template) : Res (List Obj) :=
  hkdfCall exHkdfLib (fun _ => exHash) exOracle exUid2 mech p exTlsKey exTlsKey t

def exHkdfSee (r : Res (List Obj)) : Res (List (Nat × Option Nat)) := r.map fun l => l.map fun o => (o.cls, (value o CKA_VALUE).map List.length)

/-- Extraction and expansion to four blocks, as data and as a key; extraction alone; a wrong length for it; a salt that is missing. -/
example : exHkdfSee (exHkdf CKM_HKDF_DATA (exHkdfParams 1 1 [1, 2]) [.ofUlong CKA_VALUE_LEN 7]) = .ok [(CKO_DATA, some 7)] ∧
    exHkdfSee (exHkdf CKM_HKDF_DERIVE (exHkdfParams 1 1 [1, 2]) [.ofUlong CKA_VALUE_LEN 7, .ofUlong CKA_KEY_TYPE CKK_GENERIC_SECRET]) =
      .ok [(CKO_SECRET_KEY, some 7)] ∧
    exHkdfSee (exHkdf CKM_HKDF_DERIVE (exHkdfParams 0 1 [1, 2]) [.ofUlong CKA_VALUE_LEN 7, .ofUlong CKA_KEY_TYPE CKK_GENERIC_SECRET]) =
      .ok [(CKO_SECRET_KEY, some 7)] ∧
    exHkdfSee (exHkdf CKM_HKDF_DERIVE (exHkdfParams 1 0 [1, 2]) [.ofUlong CKA_KEY_TYPE CKK_HKDF]) = .ok [(CKO_SECRET_KEY, some 2)] ∧
    exHkdfSee (exHkdf CKM_HKDF_DERIVE (exHkdfParams 1 0 [1, 2]) [.ofUlong CKA_VALUE_LEN 7, .ofUlong CKA_KEY_TYPE CKK_HKDF]) =
      .error .templateInconsistent ∧
    exHkdfSee (exHkdf CKM_HKDF_DERIVE (exHkdfParams 1 0 []) [.ofUlong CKA_KEY_TYPE CKK_HKDF]) = .error .mechanismParamInvalid := by
  decide +kernel

theorem data_made (dl : Nat) (O : Oracle) (uid : Bytes) {n : Nat} (hn : n < 2 ^ 64) :
    ∃ o, commonDeriveData dl O uid [.ofUlong CKA_VALUE_LEN n] = .ok (o, n) := by
  have e1 : Template.addMissingUlong [CkAttr.ofUlong CKA_VALUE_LEN n] CKA_CLASS CKO_DATA =
      [CkAttr.ofUlong CKA_VALUE_LEN n, CkAttr.ofUlong CKA_CLASS CKO_DATA] := rfl
  have e2 : Template.findA [CkAttr.ofUlong CKA_VALUE_LEN n, CkAttr.ofUlong CKA_CLASS CKO_DATA] CKA_VALUE_LEN = some (CkAttr.ofUlong CKA_VALUE_LEN n) := rfl
  have e3 : Template.swapRemove [CkAttr.ofUlong CKA_VALUE_LEN n, CkAttr.ofUlong CKA_CLASS CKO_DATA] CKA_VALUE_LEN =
      [CkAttr.ofUlong CKA_CLASS CKO_DATA] := rfl
  have e4 : (CkAttr.ofUlong CKA_VALUE_LEN n).toUlong = .ok n := ck_ulong hn
  have e5 : ∃ o, internalObjectCreate ⟨.data, CKO_DATA, dataAttrs⟩ [CkAttr.ofUlong CKA_CLASS CKO_DATA] oaNeverSettable oaRequiredOnCreate = .ok o :=
    ⟨okObj (internalObjectCreate ⟨.data, CKO_DATA, dataAttrs⟩ [CkAttr.ofUlong CKA_CLASS CKO_DATA] oaNeverSettable oaRequiredOnCreate),
      by decide +kernel⟩
  obtain ⟨o, e5⟩ := e5
  refine ⟨o.generateUnique uid, ?_⟩
  unfold commonDeriveData
  simp only [e1, e2, e3, e4, dataFactory]
  simp only [Factory.create, defaultObjectCreate, e5]

theorem hkdfNew_data {algs : Nat → HashAlg} {p : HkdfParams} {k : Hkdf} (h : Hkdf.new algs CKM_HKDF_DERIVE p = .ok k) :
    Hkdf.new algs CKM_HKDF_DATA p = .ok { k with mech := CKM_HKDF_DATA, isData := true } ∧ k.fin = false := by
  unfold Hkdf.new at h ⊢
  rw [if_neg (by decide)] at h ⊢
  split at h; · cases h
  rename_i c1
  rw [if_neg c1]
  split at h; · cases h
  rename_i c1
  rw [if_neg c1]
  split at h; · cases h
  rename_i c1
  rw [if_neg c1]
  split at h; · cases h
  rename_i c1
  rw [if_neg c1]
  split at h; · cases h
  rename_i s hs
  injection h with h
  subst h
  exact ⟨rfl, rfl⟩

/-- The bytes of every derived key can be had as data, with CKM_HKDF_DATA and the length alone in the template. -/
theorem C65_data (lib : HkdfLib) (algs : Nat → HashAlg) (O : Oracle) (uid uid' : Bytes) (p : HkdfParams) (salt key : Obj) (t : Template)
    (out : List Obj) (hl : HkdfOk lib) (hc : HkdfClean p) (h : hkdfCall lib algs O uid CKM_HKDF_DERIVE p salt key t = .ok out) :
    ∃ o o' v, out = [o] ∧ value o CKA_VALUE = some v ∧
      hkdfCall lib algs O uid' CKM_HKDF_DATA p salt key [.ofUlong CKA_VALUE_LEN v.length] = .ok [o'] ∧
      HasUlong o' CKA_CLASS CKO_DATA ∧ value o' CKA_VALUE = some v := by
  obtain ⟨k, s, o, n, w, dkm, hg, hk, hs, hvk, hn, ho, hx, h0, hw, hd, rfl⟩ := hkdf_shape h
  obtain ⟨_, _, _, _, _, _, k7⟩ := hkdfNew_ok hc hk
  obtain ⟨hk', hf⟩ := hkdfNew_data hk
  have hlen : dkm.length = n := by
    rcases k7 with ⟨e1, e2, m⟩ | ⟨e1, e2, m⟩ | ⟨e1, e2, m⟩ <;> rw [m] at hd hn
    · cases s with
      | none => exact absurd (hn rfl) (by decide)
      | some s => exact (hl.both _ _ _ _ _ _ hd).2
    · cases s with
      | none => exact absurd (hn rfl) (by decide)
      | some s => exact (hl.extract _ _ _ _ _ _ hd).2
    · exact (hl.expand _ _ _ _ _ _ hd).2
  obtain ⟨o', ho'⟩ := data_made k.prflen O uid' (n := n) (by omega)
  refine ⟨_, o'.put (Attr.ofBytes CKA_VALUE dkm), dkm, rfl, putVal_value o dkm, ?_, ?_, putVal_value o' dkm⟩
  · rw [hlen]
    have hs' : (if Hkdf.wantsSalt { k with mech := CKM_HKDF_DATA, isData := true } then
        Hkdf.receive { k with mech := CKM_HKDF_DATA, isData := true } salt else .ok { k with mech := CKM_HKDF_DATA, isData := true }) =
        .ok { k with mech := CKM_HKDF_DATA, isData := true, salt := s } := by
      have e : Hkdf.wantsSalt { k with mech := CKM_HKDF_DATA, isData := true } = k.wantsSalt := rfl
      rw [e]
      split at hs
      · rename_i c
        rw [if_pos c]
        unfold Hkdf.receive at hs ⊢
        have e : Hkdf.verifyKey { k with mech := CKM_HKDF_DATA, isData := true } salt 0 = k.verifyKey salt 0 := rfl
        rw [e]
        split at hs; · cases hs
        split at hs; · cases hs
        injection hs with hs
        have := congrArg Hkdf.salt hs
        simp only at this
        subst this
        rfl
      · rename_i c
        rw [if_neg c]
        injection hs with hs
        have := congrArg Hkdf.salt hs
        simp only at this
        subst this
        rfl
    have e : Hkdf.verifyKey { k with mech := CKM_HKDF_DATA, isData := true, salt := s, fin := false } key k.prflen = .ok () := hvk
    unfold hkdfCall
    rw [hg, hk']
    simp only [hs']
    unfold Hkdf.derive hkdfDerive
    simp only [hf, Bool.false_eq_true, if_false, e, if_true]
    rw [if_neg (fun q => q.2 (hn q.1))]
    simp only [ho']
    rw [if_neg (fun q => q.2 (hx q.1)), if_neg (by omega)]
    simp only [hw, hd]
  · unfold HasUlong
    rw [putVal_other o' dkm (by decide)]
    exact (commonData_ok ho').2

/-- Such a case: the value of a key that cannot be read is shown. -/
theorem C65_data_violation : ∃ (o o' : Obj) (v : Bytes),
    exHkdf CKM_HKDF_DERIVE (exHkdfParams 1 1 [1, 2]) [.ofUlong CKA_VALUE_LEN 3, .ofUlong CKA_KEY_TYPE CKK_GENERIC_SECRET, .ofBool CKA_SENSITIVE true,
      .ofBool CKA_EXTRACTABLE false] = .ok [o] ∧
    value o CKA_VALUE = some v ∧ (getObjectAttributes o [⟨CKA_VALUE, false, 3, [0, 0, 0]⟩]).1 = .error .attrSensitive ∧
    exHkdf CKM_HKDF_DATA (exHkdfParams 1 1 [1, 2]) [.ofUlong CKA_VALUE_LEN 3] = .ok [o'] ∧
    getObjectAttributes o' [⟨CKA_VALUE, false, 3, [0, 0, 0]⟩] = (.ok (), [⟨CKA_VALUE, false, 3, v⟩]) := by
  refine ⟨exSshObj (exHkdf CKM_HKDF_DERIVE (exHkdfParams 1 1 [1, 2]) [.ofUlong CKA_VALUE_LEN 3, .ofUlong CKA_KEY_TYPE CKK_GENERIC_SECRET,
      .ofBool CKA_SENSITIVE true, .ofBool CKA_EXTRACTABLE false]),
    exSshObj (exHkdf CKM_HKDF_DATA (exHkdfParams 1 1 [1, 2]) [.ofUlong CKA_VALUE_LEN 3]),
    (value (exSshObj (exHkdf CKM_HKDF_DATA (exHkdfParams 1 1 [1, 2]) [.ofUlong CKA_VALUE_LEN 3])) CKA_VALUE).getD [], ?_⟩
  decide +kernel

/-- CKM_HKDF_DERIVE without a length makes a private RSA key whose value is the secret of the hash's length. -/
theorem C65_class_violation : ∃ (o : Obj) (v : Bytes),
    exHkdf CKM_HKDF_DERIVE (exHkdfParams 1 1 [1, 2]) [.ofUlong CKA_CLASS CKO_PRIVATE_KEY, .ofUlong CKA_KEY_TYPE CKK_RSA] = .ok [o] ∧
    HasUlong o CKA_CLASS CKO_PRIVATE_KEY ∧ value o CKA_VALUE = some v ∧ v.length = 2 := by
  refine ⟨exSshObj (exHkdf CKM_HKDF_DERIVE (exHkdfParams 1 1 [1, 2]) [.ofUlong CKA_CLASS CKO_PRIVATE_KEY, .ofUlong CKA_KEY_TYPE CKK_RSA]),
    (value (exSshObj (exHkdf CKM_HKDF_DERIVE (exHkdfParams 1 1 [1, 2]) [.ofUlong CKA_CLASS CKO_PRIVATE_KEY, .ofUlong CKA_KEY_TYPE CKK_RSA]))
      CKA_VALUE).getD [], ?_⟩
  unfold HasUlong
  decide +kernel

/-- An AES key gets the length of the hash when the template has none (here two bytes); a length that is not one of AES is refused. -/
theorem C65_size_violation :
    exHkdfSee (exHkdf CKM_HKDF_DERIVE (exHkdfParams 1 1 [1, 2]) [.ofUlong CKA_KEY_TYPE CKK_AES]) = .ok [(CKO_SECRET_KEY, some 2)] ∧
    exHkdf CKM_HKDF_DERIVE (exHkdfParams 1 1 [1, 2]) [.ofUlong CKA_KEY_TYPE CKK_AES, .ofUlong CKA_VALUE_LEN 5] = .error .templateInconsistent := by
  decide +kernel

/-- RFC 5869 asks for a pseudo-random key of at least the hash's length; a key of one byte is expanded. -/
theorem C65_short_violation : ∃ key : Obj, value key CKA_VALUE = some [9] ∧ 1 < exHash.hlen ∧
    exHkdfSee (hkdfCall exHkdfLib (fun _ => exHash) exOracle exUid2 CKM_HKDF_DATA (exHkdfParams 0 1 [1]) key key [.ofUlong CKA_VALUE_LEN 3]) =
      .ok [(CKO_DATA, some 3)] := by
  refine ⟨(exTlsKey.put (Attr.ofUlong CKA_VALUE_LEN 1)).put (Attr.ofBytes CKA_VALUE [9]), ?_⟩
  decide +kernel

/-- A flag that is neither CK_TRUE nor CK_FALSE: extraction is asked for and skipped. -/
theorem C65_flag_violation : ∃ (o o' : Obj) (v : Bytes),
    exHkdf CKM_HKDF_DATA (exHkdfParams 2 1 [1, 2]) [.ofUlong CKA_VALUE_LEN 3] = .ok [o] ∧
    exHkdf CKM_HKDF_DATA (exHkdfParams 0 1 [1, 2]) [.ofUlong CKA_VALUE_LEN 3] = .ok [o'] ∧
    value o CKA_VALUE = some v ∧ value o' CKA_VALUE = some v := by
  refine ⟨exSshObj (exHkdf CKM_HKDF_DATA (exHkdfParams 2 1 [1, 2]) [.ofUlong CKA_VALUE_LEN 3]),
    exSshObj (exHkdf CKM_HKDF_DATA (exHkdfParams 0 1 [1, 2]) [.ofUlong CKA_VALUE_LEN 3]),
    (value (exSshObj (exHkdf CKM_HKDF_DATA (exHkdfParams 0 1 [1, 2]) [.ofUlong CKA_VALUE_LEN 3])) CKA_VALUE).getD [], ?_⟩
  decide +kernel

end Kry
