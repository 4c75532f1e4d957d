import Verif.Model.Pbkdf2
import Verif.Props.C62

/-!
# C63: PBKDF2

`C63_value_partial`: the generated key holds exactly the bytes of RFC 8018, section 5.2, of the length in the template.  `C63_marks`: it is marked as
generated by this mechanism.  `C63_refused`: what is refused.  `C63_zero_violation`: with an iteration count of 0 the key is all zeros,
whatever the password.
-/

namespace Kry
namespace Spec

/-- RFC 8018, 5.2: U_1 = PRF(P, S || INT(i)), U_c = PRF(P, U_{c-1}); `pbU c` is U_{c+1}. -/
def pbU (a : HashAlg) (P S : Bytes) (i : Nat) : Nat → Bytes
  | 0 => hmac a P (S ++ toBE 4 i)
  | c + 1 => hmac a P (pbU a P S i c)

/-- F(P, S, c + 1, i) = U_1 xor ... xor U_{c+1}. -/
def pbF (a : HashAlg) (P S : Bytes) (i : Nat) : Nat → Bytes
  | 0 => pbU a P S i 0
  | c + 1 => List.zipWith (· ^^^ ·) (pbF a P S i c) (pbU a P S i (c + 1))

/-- T_1 || ... || T_n with T_i = F(P, S, c + 1, i). -/
def pbStream (a : HashAlg) (P S : Bytes) (c : Nat) : Nat → Bytes
  | 0 => []
  | n + 1 => pbStream a P S c n ++ pbF a P S (n + 1) c

/-- `out` is PBKDF2(P, S, iter, out.length). -/
def IsPbkdf2 (a : HashAlg) (P S : Bytes) (iter : Nat) (out : Bytes) : Prop :=
  ∃ c, iter = c + 1 ∧ ∀ n, out.length ≤ n * a.hlen → out <+: pbStream a P S c n

/-- The HMAC that each CKP_PKCS5_PBKD2_HMAC_* value names. -/
def pbPrf : List (Nat × Nat) :=
  [(CKP_PKCS5_PBKD2_HMAC_SHA1, CKM_SHA_1_HMAC), (CKP_PKCS5_PBKD2_HMAC_SHA224, CKM_SHA224_HMAC), (CKP_PKCS5_PBKD2_HMAC_SHA256, CKM_SHA256_HMAC),
   (CKP_PKCS5_PBKD2_HMAC_SHA384, CKM_SHA384_HMAC), (CKP_PKCS5_PBKD2_HMAC_SHA512, CKM_SHA512_HMAC),
   (CKP_PKCS5_PBKD2_HMAC_SHA512_224, CKM_SHA512_224_HMAC), (CKP_PKCS5_PBKD2_HMAC_SHA512_256, CKM_SHA512_256_HMAC)]

end Spec

open Spec

theorem pbU_length {a : HashAlg} (ha : HashOk a) (P S : Bytes) (i c : Nat) : (pbU a P S i c).length = a.hlen := by
  cases c <;> exact prf_hmac_length ha _ _

theorem pbF_length {a : HashAlg} (ha : HashOk a) (P S : Bytes) (i c : Nat) : (pbF a P S i c).length = a.hlen := by
  induction c with
  | zero => exact pbU_length ha ..
  | succ c ih => rw [pbF, List.length_zipWith, ih, pbU_length ha]; omega

theorem pbStream_length {a : HashAlg} (ha : HashOk a) (P S : Bytes) (c n : Nat) : (pbStream a P S c n).length = n * a.hlen := by
  induction n with
  | zero => simp [pbStream]
  | succ n ih => rw [pbStream, List.length_append, ih, pbF_length ha, Nat.succ_mul]

theorem pbStream_prefix (a : HashAlg) (P S : Bytes) (c : Nat) {n m : Nat} (h : n ≤ m) : pbStream a P S c n <+: pbStream a P S c m := by
  induction m with
  | zero => rw [Nat.le_zero.mp h]; exact List.prefix_rfl
  | succ m ih =>
    by_cases e : n = m + 1
    · rw [e]; exact List.prefix_rfl
    · refine (ih (by omega)).trans ?_
      rw [pbStream]; exact List.prefix_append ..

theorem take_pb {a : HashAlg} (ha : HashOk a) (P S : Bytes) (c n r : Nat) (h : r ≤ n * a.hlen) :
    ((pbStream a P S c n).take r).length = r ∧ IsPbkdf2 a P S (c + 1) ((pbStream a P S c n).take r) := by
  have hl : ((pbStream a P S c n).take r).length = r := by rw [List.length_take, pbStream_length ha]; omega
  refine ⟨hl, c, rfl, ?_⟩
  intro m hm
  rw [hl] at hm
  by_cases e : n ≤ m
  · exact (List.take_prefix ..).trans (pbStream_prefix a P S c e)
  · obtain ⟨x, hx⟩ := pbStream_prefix a P S c (show m ≤ n by omega)
    rw [← hx, List.take_append_of_le_length (by rw [pbStream_length ha]; exact hm)]
    exact List.take_prefix ..

/-- Two outputs of the same length are the same. -/
theorem pb_unique {a : HashAlg} (ha : HashOk a) (h0 : 0 < a.hlen) {P S : Bytes} {iter : Nat} {x y : Bytes}
    (hx : IsPbkdf2 a P S iter x) (hy : IsPbkdf2 a P S iter y) (hl : x.length = y.length) : x = y := by
  obtain ⟨c, e, hx⟩ := hx
  obtain ⟨c', e', hy⟩ := hy
  have : c' = c := by omega
  subst this
  have hm : x.length ≤ x.length * a.hlen := Nat.le_mul_of_pos_right _ h0
  have h1 := List.prefix_iff_eq_take.mp (hx x.length hm)
  have h2 := List.prefix_iff_eq_take.mp (hy x.length (by rw [← hl]; exact hm))
  rw [h1, h2, hl]

theorem password_prf {algs : Nat → HashAlg} {prf : Nat} (ha : HashOk (algs prf)) (P i : Bytes) :
    pbkdf2Prf algs prf (passwordObj P) i (algs prf).hlen = .ok (hmac (algs prf) P i) := by
  have h1 : (passwordObj P).getUlong CKA_CLASS = .ok CKO_SECRET_KEY := by
    unfold passwordObj Obj.getUlong
    rw [find_setBool, find_put, find_put, find_put]
    exact (by decide : (Attr.ofUlong CKA_CLASS CKO_SECRET_KEY).toUlong = .ok CKO_SECRET_KEY)
  have h2 : (passwordObj P).getUlong CKA_KEY_TYPE = .ok CKK_GENERIC_SECRET := by
    unfold passwordObj Obj.getUlong
    rw [find_setBool, find_put, find_put, find_put]
    exact (by decide : (Attr.ofUlong CKA_KEY_TYPE CKK_GENERIC_SECRET).toUlong = .ok CKK_GENERIC_SECRET)
  have h3 : (passwordObj P).getBool CKA_DERIVE = .ok true := by
    unfold passwordObj Obj.getBool
    rw [find_setBool]
    exact (by decide : (Attr.ofBool CKA_DERIVE true).toBool = .ok true)
  have h4 : (passwordObj P).getBytes CKA_VALUE = .ok P := by
    unfold passwordObj Obj.getBytes
    rw [find_setBool, find_put]; rfl
  unfold pbkdf2Prf hmacNew
  rw [h1]
  simp only
  rw [if_neg (by decide), h2]
  simp only
  rw [if_neg (by simp), h3, if_neg (by simp), h4]
  simp only
  rw [C50_oneshot ha P i _ (Nat.le_refl _), List.take_of_length_le (Nat.le_of_eq (prf_hmac_length ha _ _))]

theorem rounds_spec {a : HashAlg} (P S : Bytes) (i : Nat) (f : Bytes → Res Bytes) (hf : ∀ x, f x = .ok (hmac a P x)) :
    ∀ todo c, pbkdf2Rounds f todo (pbU a P S i c) (pbF a P S i c) = .ok (pbF a P S i (c + todo)) := by
  intro todo
  induction todo with
  | zero => intro c; rfl
  | succ todo ih =>
    intro c
    rw [pbkdf2Rounds, hf]
    have := ih (c + 1)
    rw [show c + (todo + 1) = c + 1 + todo by omega]
    exact this

theorem xor_zeros (n : Nat) (l : Bytes) (h : l.length = n) : List.zipWith (· ^^^ ·) (List.replicate n 0) l = l := by
  rw [xor_rep n 0 l h]; simp

theorem rounds_all {a : HashAlg} (ha : HashOk a) (P S : Bytes) (i c : Nat) (f : Bytes → Res Bytes) (hf : ∀ x, f x = .ok (hmac a P x)) :
    pbkdf2Rounds f (c + 1) (S ++ toBE 4 i) (List.replicate a.hlen 0) = .ok (pbF a P S i c) := by
  rw [pbkdf2Rounds, hf]
  simp only
  rw [xor_zeros _ _ (prf_hmac_length ha _ _)]
  have := rounds_spec P S i f hf c 0
  rw [Nat.zero_add] at this
  exact this

theorem blocks_spec {a : HashAlg} (ha : HashOk a) (h0 : 0 < a.hlen) (P S : Bytes) (c n : Nat) (f : Bytes → Res Bytes)
    (hf : ∀ x, f x = .ok (hmac a P x)) :
    ∀ (todo b : Nat), b + todo = (n + a.hlen - 1) / a.hlen → b * a.hlen ≤ n → ∀ out,
      pbkdf2Blocks f S (c + 1) n a.hlen todo b (pbStream a P S c b) = .ok out →
      out = (pbStream a P S c ((n + a.hlen - 1) / a.hlen)).take n := by
  intro todo
  induction todo with
  | zero =>
    intro b hb hn out h
    rw [pbkdf2Blocks] at h
    injection h with h
    rw [← hb, Nat.add_zero, List.take_of_length_le (by rw [pbStream_length ha]; exact hn), h]
  | succ todo ih =>
    intro b hb hn out h
    rw [pbkdf2Blocks] at h
    split at h; · cases h
    rw [rounds_all ha P S (b + 1) c f hf] at h
    simp only at h
    have hlen := pbStream_length ha P S c b
    have fl := pbF_length ha P S (b + 1) c
    by_cases e : b * a.hlen + a.hlen > n
    · have last : (n + a.hlen - 1) / a.hlen = b + 1 := by
        apply Nat.le_antisymm
        · have : (n + a.hlen - 1) / a.hlen < b + 2 := by
            rw [Nat.div_lt_iff_lt_mul h0, Nat.succ_mul, Nat.succ_mul]; omega
          omega
        · omega
      have : todo = 0 := by omega
      subst this
      rw [pbkdf2Blocks] at h
      injection h with h
      have ht : (pbStream a P S c b).take n = pbStream a P S c b := List.take_of_length_le (by omega)
      rw [last, pbStream, List.take_append, ht, hlen, ← h, Nat.min_eq_left (by omega)]
    · rw [Nat.min_eq_right (by omega), List.take_of_length_le (by omega)] at h
      exact ih (b + 1) (by omega) (by rw [Nat.succ_mul]; omega) out h

theorem pbkdf2Derive_spec {algs : Nat → HashAlg} {prf : Nat} (ha : HashOk (algs prf)) {P S : Bytes} {c n : Nat} {out : Bytes}
    (h : pbkdf2Derive algs prf (passwordObj P) S (c + 1) n = .ok out) : out.length = n ∧ IsPbkdf2 (algs prf) P S (c + 1) out := by
  unfold pbkdf2Derive at h
  simp only at h
  split at h; · cases h
  split at h; · cases h
  rename_i hz _
  have h0 : 0 < (algs prf).hlen := by omega
  have := blocks_spec ha h0 P S c n _ (fun x => password_prf ha P x) _ 0 (by omega) (by omega) out h
  rw [this]
  apply take_pb ha
  have := Nat.lt_succ_self ((n + (algs prf).hlen - 1) / (algs prf).hlen)
  rw [Nat.div_lt_iff_lt_mul h0, Nat.succ_mul] at this
  omega

/-! ## The object -/

theorem secret_or_otp : registry.all (fun p => !(p.2.cls == CKO_SECRET_KEY || p.2.cls == CKO_OTP_KEY) ||
    (match p.2.kind with | .genericSecret _ => true | .aes => true | .hotp => true | _ => false)) = true := by decide +kernel

theorem notIgnored_value : allFactories (notIgnored CKA_VALUE) = true := by decide +kernel

theorem value_notIgnored {F : Factory} {k : Nat × Nat} (hF : (k, F) ∈ registry) {t : Nat} (h : allFactories (notIgnored t) = true) :
    ¬ Marked F t oaIgnored := by
  rintro ⟨f, hf, e, hi⟩
  have := allFactories_spec h hF
  unfold notIgnored at this
  rw [List.all_eq_true] at this
  have := this f hf
  simp [e, hi] at this

theorem fromCk_bytes {c : CkAttr} {a : Attr} (hk : attrKind c.typ = some .bytes) (h : Attr.fromCk c = .ok a) : a.value = c.toBuf := by
  unfold Attr.fromCk at h
  rw [hk] at h
  simp only at h
  repeat' split at h
  all_goals first | (cases h; done) | (injection h with h; rw [← h]; rfl)

/-- A secret key created with a value has that value; the template is acceptable. -/
theorem create_value {O : Oracle} {uid : Bytes} {F : Factory} {k : Nat × Nat} (hF : (k, F) ∈ registry)
    (hc : F.cls = CKO_SECRET_KEY ∨ F.cls = CKO_OTP_KEY) {t : Template} {v : Bytes} {o : Obj}
    (h : F.create O uid (t ++ [CkAttr.mk' CKA_VALUE v]) = .ok o) : value o CKA_VALUE = some v := by
  obtain ⟨o0, h0, hs⟩ := create_same O uid F k hF _ o h
  have hk := List.all_eq_true.mp secret_or_otp _ hF
  have nc : CKA_VALUE ∉ computed F.kind := by
    have : (F.cls == CKO_SECRET_KEY || F.cls == CKO_OTP_KEY) = true := by simpa using hc
    simp only [this, Bool.not_true, Bool.false_or] at hk
    revert hk
    cases F.kind <;> simp [computed, CKA_VALUE, CKA_UNIQUE_ID, CKA_LOCAL, CKA_ALWAYS_SENSITIVE, CKA_NEVER_EXTRACTABLE, CKA_VALUE_LEN, CKA_KEY_TYPE,
      CKA_ALLOWED_MECHANISMS]
  have acc := (C15_accepts_iff F k hF _ _ _).mp ⟨o0, h0⟩
  have nv := C15_values F k hF _ _ _ o0 h0 CKA_VALUE
  rw [value_eq, hs _ nc, ← value_eq]
  have nm := value_notIgnored hF notIgnored_value
  generalize value o0 CKA_VALUE = w at nv
  cases nv with
  | cls e => exact absurd e (by decide)
  | given c a _ _ hm ht ha =>
    have : c = CkAttr.mk' CKA_VALUE v := once_unique (P := fun t => t = CKA_CLASS ∨ Marked F t oaIgnored) acc.once hm (by simp) ht
      (by rw [ht]; exact fun e => e.elim (by decide) nm)
    rw [fromCk_bytes (by rw [ht]; decide +kernel) ha, this]
    rfl
  | default f hn => exact absurd (.inr ⟨nm, CkAttr.mk' CKA_VALUE v, by simp, rfl⟩) hn
  | absent hn => exact absurd (.inr ⟨nm, CkAttr.mk' CKA_VALUE v, by simp, rfl⟩) hn

/-- What a successful generation did. -/
theorem pb_shape {algs : Nat → HashAlg} {O : Oracle} {uid : Bytes} {mech : Nat} {p : Pbkdf2Params} {t : Template} {o : Obj}
    (h : pbkdf2Generate algs O uid mech p t = .ok o) :
    ∃ prf n dkm o1, mech = CKM_PKCS5_PBKD2 ∧ p.prfData = false ∧ AMap.get pbkdf2Prfs p.prf = some prf ∧ p.saltSource = CKZ_SALT_SPECIFIED ∧
      p.salt ≠ [] ∧ pbkdf2Derive algs prf (passwordObj p.password) p.salt p.iterations n = .ok dkm ∧ o = defaultKeyAttributes o1 mech ∧
      value o1 CKA_VALUE = some dkm ∧ (∀ c ∈ t, c.typ = CKA_VALUE_LEN → c.toUlong = .ok n) := by
  unfold pbkdf2Generate at h
  split at h; · cases h
  rename_i hm
  split at h; · cases h
  rename_i hd
  split at h; · cases h
  rename_i prf hp
  split at h; · cases h
  rename_i hs
  split at h; · cases h
  rename_i F hF
  split at h; · cases h
  rename_i n hn
  split at h; · cases h
  rename_i dkm hdk
  split at h; · cases h
  rename_i o1 ho
  injection h with h
  obtain ⟨k, hr⟩ := keyTemplateFactory_mem hF
  obtain ⟨o0, h0, _⟩ := create_same O uid F k hr _ o1 ho
  have acc := (C15_accepts_iff F k hr _ _ _).mp ⟨o0, h0⟩
  have hcls : F.cls = CKO_SECRET_KEY ∨ F.cls = CKO_OTP_KEY := by
    unfold pbkdf2KeyLen at hn
    split at hn
    · rename_i c hc
      have hc1 := List.mem_of_find?_eq_some hc
      have hc2 : c.typ = CKA_VALUE_LEN := by simpa using List.find?_some hc
      obtain ⟨f, hf, e⟩ := acc.known c (by simp [hc1])
      have := allFactories_spec valueLen_secret hr
      have hany : (F.attrs.any fun f => f.typ == CKA_VALUE_LEN) = true := List.any_eq_true.mpr ⟨f, hf, by simp [e, hc2]⟩
      simp only [hany, Bool.not_true, Bool.false_or] at this
      simpa using this
    · split at hn
      · assumption
      · cases hn
  refine ⟨prf, n, dkm, o1, Classical.not_not.mp hm, by simpa using hd, hp, ?_, ?_, hdk, h.symm, create_value hr hcls ho, ?_⟩
  · exact Classical.not_not.mp fun e => hs (.inl e)
  · exact fun e => hs (.inr e)
  · intro c hc ht
    unfold pbkdf2KeyLen at hn
    split at hn
    · rename_i c0 hc0
      have hc1 := List.mem_of_find?_eq_some hc0
      have hc2 : c0.typ = CKA_VALUE_LEN := by simpa using List.find?_some hc0
      have : c = c0 := once_unique (P := fun t => t = CKA_CLASS ∨ Marked F t oaIgnored) acc.once (by simp [hc]) (by simp [hc1]) (ht.trans hc2.symm)
        (by rw [ht]; exact fun e => e.elim (by decide) (value_notIgnored hr notIgnored_valueLen))
      rw [this]; exact hn
    · rename_i hc0
      have := List.find?_eq_none.mp hc0 c hc
      simp [ht] at this

theorem pbPrfs_mem {p prf : Nat} (h : AMap.get pbkdf2Prfs p = some prf) : (p, prf) ∈ pbPrf := by
  unfold pbkdf2Prfs at h
  simp only [AMap.get] at h
  unfold pbPrf
  split at h
  · rename_i e; injection h with h; simp [← e, ← h]
  split at h
  · rename_i e; injection h with h; simp [← e, ← h]
  split at h
  · rename_i e; injection h with h; simp [← e, ← h]
  split at h
  · rename_i e; injection h with h; simp [← e, ← h]
  split at h
  · rename_i e; injection h with h; simp [← e, ← h]
  split at h
  · rename_i e; injection h with h; simp [← e, ← h]
  split at h
  · rename_i e; injection h with h; simp [← e, ← h]
  cases h

/-- **C63**: a key generated from a password holds PBKDF2(password, salt, iterations, length) with the HMAC that the parameter names, and has the
length that the template names.

Partial: the iteration count must be at least 1; see `C63_zero_violation`. -/
theorem C63_value_partial (algs : Nat → HashAlg) (ha : ∀ m, HashOk (algs m)) (O : Oracle) (uid : Bytes) (mech : Nat) (p : Pbkdf2Params)
    (t : Template) (o : Obj) (h : pbkdf2Generate algs O uid mech p t = .ok o) (hi : p.iterations ≠ 0) :
    ∃ prf v, (p.prf, prf) ∈ pbPrf ∧ value o CKA_VALUE = some v ∧ (∀ c ∈ t, c.typ = CKA_VALUE_LEN → c.toUlong = .ok v.length) ∧
      IsPbkdf2 (algs prf) p.password p.salt p.iterations v := by
  obtain ⟨prf, n, dkm, o1, _, _, h3, _, _, h6, h7, h8, h9⟩ := pb_shape h
  obtain ⟨c, hc⟩ : ∃ c, p.iterations = c + 1 := ⟨p.iterations - 1, by omega⟩
  rw [hc] at h6 ⊢
  obtain ⟨s1, s2⟩ := pbkdf2Derive_spec (ha prf) h6
  refine ⟨prf, dkm, pbPrfs_mem h3, ?_, by rw [s1]; exact h9, s2⟩
  rw [h7, defaults_value _ _ _ (by decide) (by decide) (by decide) (by decide), h8]

/-- **C63**: the key says where it comes from. -/
theorem C63_marks (algs : Nat → HashAlg) (O : Oracle) (uid : Bytes) (mech : Nat) (p : Pbkdf2Params) (t : Template) (o : Obj)
    (h : pbkdf2Generate algs O uid mech p t = .ok o) : HasUlong o CKA_KEY_GEN_MECHANISM CKM_PKCS5_PBKD2 ∧ IsTrue o CKA_LOCAL := by
  obtain ⟨_, _, _, o1, h1, _, _, _, _, _, h7, _⟩ := pb_shape h
  subst h1
  rw [h7]
  unfold HasUlong IsTrue defaultKeyAttributes
  simp only [value_eq, find_setBool, find_put]
  exact ⟨rfl, 1, rfl, by decide⟩

/-- **C63**: without a salt, with parameters for the HMAC, or with an unknown HMAC there is no key. -/
theorem C63_refused (algs : Nat → HashAlg) (O : Oracle) (uid : Bytes) (mech : Nat) (p : Pbkdf2Params) (t : Template)
    (hp : p.salt = [] ∨ p.saltSource ≠ CKZ_SALT_SPECIFIED ∨ p.prfData = true ∨ ∀ prf, (p.prf, prf) ∉ pbPrf) :
    ∀ o, pbkdf2Generate algs O uid mech p t ≠ .ok o := by
  intro o h
  obtain ⟨prf, _, _, _, _, h2, h3, h4, h5, _⟩ := pb_shape h
  rcases hp with e | e | e | e
  · exact h5 e
  · exact e h4
  · rw [h2] at e; cases e
  · exact e prf (pbPrfs_mem h3)

/-! ## Examples and the violation -/

def exPbParams (iter : Nat) (pass : Bytes) : Pbkdf2Params :=
  ⟨CKZ_SALT_SPECIFIED, [9, 8, 7], iter, CKP_PKCS5_PBKD2_HMAC_SHA256, false, pass⟩
def exPbTmpl : Template := [.ofUlong CKA_CLASS CKO_SECRET_KEY, .ofUlong CKA_KEY_TYPE CKK_AES, .ofUlong CKA_VALUE_LEN 16]
def exPb (iter : Nat) (pass : Bytes) : Res Obj :=
  pbkdf2Generate (fun _ => exHash) exOracle exUid CKM_PKCS5_PBKD2 (exPbParams iter pass) exPbTmpl

/-- A key of 16 bytes from 3 iterations; another password gives another key. -/
example : (∃ v, value (okObj (exPb 3 [1, 2, 3])) CKA_VALUE = some v ∧ v.length = 16 ∧ value (okObj (exPb 3 [1, 2, 4])) CKA_VALUE ≠ some v) ∧
    exPb 3 [1, 2, 3] = .ok (okObj (exPb 3 [1, 2, 3])) ∧ (exPbParams 3 [1, 2, 3]).iterations ≠ 0 ∧ ∀ m, HashOk ((fun _ : Nat => exHash) m) :=
  ⟨⟨(value (okObj (exPb 3 [1, 2, 3])) CKA_VALUE).getD [], by decide +kernel⟩, by decide +kernel, by decide, fun _ => exHash_ok⟩

/-- An iteration count of 0 is accepted: every password and every salt then gives the key of all zero bytes. -/
theorem C63_zero (algs : Nat → HashAlg) (O : Oracle) (uid : Bytes) (mech : Nat) (p : Pbkdf2Params)
    (t : Template) (o : Obj) (h : pbkdf2Generate algs O uid mech p t = .ok o) (hi : p.iterations = 0) :
    ∃ n, value o CKA_VALUE = some (List.replicate n 0) := by
  obtain ⟨prf, n, dkm, o1, _, _, h3, _, _, h6, h7, h8, h9⟩ := pb_shape h
  rw [h7, defaults_value _ _ _ (by decide) (by decide) (by decide) (by decide), h8]
  rw [hi] at h6
  unfold pbkdf2Derive at h6
  simp only at h6
  split at h6; · cases h6
  split at h6; · cases h6
  have : ∀ (todo b m : Nat) (out : Bytes), pbkdf2Blocks (fun i => pbkdf2Prf algs prf (passwordObj p.password) i (algs prf).hlen) p.salt 0 n (algs prf).hlen
      todo b (List.replicate m 0) = .ok out → ∃ m, out = List.replicate m 0 := by
    intro todo
    induction todo with
    | zero => intro b m out h; injection h with h; exact ⟨m, h.symm⟩
    | succ todo ih =>
      intro b m out h
      rw [pbkdf2Blocks] at h
      split at h; · cases h
      simp only [pbkdf2Rounds, List.take_replicate, List.replicate_append_replicate] at h
      exact ih _ _ _ h
  obtain ⟨m, e⟩ := this _ 0 0 _ h6
  exact ⟨m, by rw [e]⟩

/-- Such a case. -/
theorem C63_zero_violation : ∃ o o', exPb 0 [1, 2, 3] = .ok o ∧ exPb 0 [7] = .ok o' ∧ value o CKA_VALUE = some (List.replicate 16 0) ∧
    value o' CKA_VALUE = value o CKA_VALUE :=
  ⟨okObj (exPb 0 [1, 2, 3]), okObj (exPb 0 [7]), by decide +kernel⟩

example : (∀ o, pbkdf2Generate (fun _ => exHash) exOracle exUid CKM_PKCS5_PBKD2 { exPbParams 3 [1] with salt := [] } exPbTmpl ≠ .ok o) ∧
    isOk (exPb 3 [1]) = true := ⟨C63_refused _ _ _ _ _ _ (.inl rfl), by decide +kernel⟩

end Kry
