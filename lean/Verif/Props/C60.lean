import Verif.Proofs.TlsPrf
import Verif.Props.C46
import Verif.Props.C48

/-!
# C60: TLS 1.2 key derivation

`C60_prf`: the pseudo-random function.  `C60_master`, `C60_ems`, `C60_kdf`, `C60_expand_partial`: each mechanism stores exactly the bytes
of RFC 5246 / RFC 7627.  `C60_protect`: the connection keys are as sensitive and as extractable as the master secret.  `C60_once`: an
operation derives once.  `C60_zero_violation`, `C60_launder_violation`: where the claim fails.

PKCS#11 numbers the HMAC mechanism of each of these hashes right after the hash, hence `algs (hash + 1)`.
-/

namespace Kry
namespace Spec

/-- ASCII text. -/
def text (s : String) : Bytes := s.toList.map fun c => UInt8.ofNat c.toNat

end Spec

open Spec

/-! ## What the template says is what the derived key has -/

theorem once_unique {P : Nat → Prop} {tm : Template} (h : tm.Pairwise fun c d => c.typ = d.typ → P c.typ) {c d : CkAttr} (hc : c ∈ tm)
    (hd : d ∈ tm) (e : c.typ = d.typ) (hP : ¬ P c.typ) : c = d := by
  induction tm with
  | nil => cases hc
  | cons x l ih =>
    rw [List.pairwise_cons] at h
    rcases List.mem_cons.mp hc with hc' | hc' <;> rcases List.mem_cons.mp hd with hd' | hd'
    · rw [hc', hd']
    · subst hc'; exact absurd (h.1 d hd' e) hP
    · subst hd'; exact absurd (h.1 c hc' e.symm) (by rw [← e]; exact hP)
    · exact ih h.2 hc' hd'

/-- What `keyDerive` adds to the object made from the template. -/
theorem keyDerive_same {F : Factory} {uid : Bytes} {tm : Template} {base o : Obj} (h : keyDerive F uid tm base = .ok o) :
    ∃ o0, internalObjectCreate F tm oaGenUnacceptable oaAlwaysRequired = .ok o0 ∧
      ∀ t, t ∉ [CKA_LOCAL, CKA_ALWAYS_SENSITIVE, CKA_NEVER_EXTRACTABLE, CKA_UNIQUE_ID] → o.find t = o0.find t := by
  have hi : internalKeyDerive F uid tm base = .ok o := by
    unfold keyDerive at h
    split at h
    · cases h
    · rename_i o1 h1
      split at h
      · split at h
        · split at h
          · cases h
          · injection h with h; rw [h1, h]
        · injection h with h; rw [h1, h]
      · injection h with h; rw [h1, h]
  unfold internalKeyDerive internalKeyCreate at hi
  split at hi
  · cases hi
  · rename_i o1 h1
    split at h1
    · cases h1
    · rename_i o0 h0
      injection h1 with h1
      refine ⟨o0, h0, fun t ht => ?_⟩
      simp only [List.mem_cons, List.not_mem_nil, or_false, not_or] at ht
      obtain ⟨t1, t2, t3, t4⟩ := ht
      injection hi with hi
      rw [← hi]
      have g : o1.find t = o0.find t := by rw [← h1, find_generateUnique, if_neg t4]
      have f2 : ∀ (q : Obj) (b : Bool), (q.setBool CKA_ALWAYS_SENSITIVE b).find t = q.find t := fun q b => by
        rw [find_setBool, if_neg (fun e => t2 e.symm)]
      have f3 : ∀ (q : Obj) (b : Bool), (q.setBool CKA_NEVER_EXTRACTABLE b).find t = q.find t := fun q b => by
        rw [find_setBool, if_neg (fun e => t3 e.symm)]
      have f1 : ∀ (q : Obj) (b : Bool), (q.setBool CKA_LOCAL b).find t = q.find t := fun q b => by
        rw [find_setBool, if_neg (fun e => t1 e.symm)]
      cases base.getBool CKA_ALWAYS_SENSITIVE with
      | error _ =>
        cases base.getBool CKA_NEVER_EXTRACTABLE with
        | error _ => simp only [f1, f2, f3, g]
        | ok b' => cases b' <;> simp only [f1, f2, f3, g]
      | ok b =>
        cases base.getBool CKA_NEVER_EXTRACTABLE with
        | error _ => cases b <;> simp only [f1, f2, f3, g]
        | ok b' => cases b <;> cases b' <;> simp only [f1, f2, f3, g]

/-- No class ignores attribute `t`. -/
def notIgnored (t : Nat) (F : Factory) : Bool := F.attrs.all fun f => f.typ != t || !f.is oaIgnored

theorem derive_given {F : Factory} {k : Nat × Nat} (hF : (k, F) ∈ registry) {uid : Bytes} {tm : Template} {base o : Obj}
    (h : keyDerive F uid tm base = .ok o) {t : Nat} (ht : t ∉ [CKA_LOCAL, CKA_ALWAYS_SENSITIVE, CKA_NEVER_EXTRACTABLE, CKA_UNIQUE_ID])
    (hcl : t ≠ CKA_CLASS) (hig : allFactories (notIgnored t) = true) {c : CkAttr} (hc : c ∈ tm) (hct : c.typ = t) :
    ∃ a, Attr.fromCk c = .ok a ∧ value o t = some a.value := by
  obtain ⟨o0, h0, hf⟩ := keyDerive_same h
  have acc := (C15_accepts_iff F k hF tm _ _).mp ⟨o0, h0⟩
  have nm : ¬ Marked F t oaIgnored := by
    rintro ⟨f, hf, e, hi⟩
    have := allFactories_spec hig hF
    unfold notIgnored at this
    rw [List.all_eq_true] at this
    have := this f hf
    simp [e, hi] at this
  have nv := C15_values F k hF tm _ _ o0 h0 t
  have hv : value o t = value o0 t := by rw [value_eq, value_eq, hf t ht]
  rw [hv]
  have hsup : Supplies F tm t := .inr ⟨nm, c, hc, hct⟩
  cases hn : value o0 t with
  | none =>
    rw [hn] at nv
    cases nv with
    | absent h' => exact absurd hsup h'
  | some w =>
    rw [hn] at nv
    cases nv with
    | cls e => exact absurd e hcl
    | given c' a _ _ hc' e hfc =>
      have : c = c' := once_unique (P := fun t => t = CKA_CLASS ∨ Marked F t oaIgnored) acc.once hc hc' (hct.trans e.symm)
        (by rw [hct]; exact fun e => e.elim hcl nm)
      subst this
      exact ⟨a, hfc, rfl⟩
    | default f h' => exact absurd hsup h'

theorem notIgnored_sensitive : allFactories (notIgnored CKA_SENSITIVE) = true := by decide +kernel
theorem notIgnored_extractable : allFactories (notIgnored CKA_EXTRACTABLE) = true := by decide +kernel
theorem notIgnored_valueLen : allFactories (notIgnored CKA_VALUE_LEN) = true := by decide +kernel

theorem fromCk_boolean {c : CkAttr} {a : Attr} {b : Bool} (hk : attrKind c.typ = some .bool) (h : Attr.fromCk c = .ok a) (hb : c.toBool = .ok b) :
    a.value = [if b then 1 else 0] := by
  rw [fromCk_bool hk hb h]
  cases b <;> rfl

theorem mem_addMissingT {t : Template} {c d : CkAttr} (h : d ∈ t) : d ∈ t.addMissing c := by
  unfold Template.addMissing
  split
  · exact h
  · exact List.mem_append_left _ h

theorem addMissing_has (t : Template) (c : CkAttr) : ∃ d ∈ t.addMissing c, d.typ = c.typ := by
  unfold Template.addMissing
  split
  · rename_i d hd
    exact ⟨d, List.mem_of_find?_eq_some hd, by simpa using List.find?_some hd⟩
  · exact ⟨c, by simp, rfl⟩

theorem mem_addMissingUlong {t : Template} {n m : Nat} {d : CkAttr} (h : d ∈ t) : d ∈ t.addMissingUlong n m := by
  unfold Template.addMissingUlong
  split
  · exact h
  · exact List.mem_append_left _ h

theorem checkAll_ok {f : CkAttr → Res Unit} {t : Template} (h : checkAll f t = .ok ()) : ∀ c ∈ t, f c = .ok () := by
  induction t with
  | nil => intro c hc; cases hc
  | cons x l ih =>
    unfold checkAll at h
    split at h
    · cases h
    · rename_i hx
      intro c hc
      rcases List.mem_cons.mp hc with rfl | hc
      · exact hx
      · exact ih h c hc

/-- On a new HMAC operation: P_hash of RFC 5246 for every seed and every length that fits the memory. -/
theorem C60_prf {a : HashAlg} (ha : HashOk a) (h0 : 0 < a.hlen) (secret seed : Bytes) (n : Nat)
    (hn : (n + a.hlen - 1) / a.hlen * a.hlen < 2 ^ 63) :
    ∃ out, prfFinish (Hmac.internal a secret a.hlen) seed n = .ok out ∧ out.length = n ∧ IsPrf a secret seed out := by
  have := prfFinish_spec ha h0 (fed_internal ha secret a.hlen) seed n
  rwa [if_pos hn] at this

theorem hashToHmac_next : ∀ p ∈ hashToHmac, p.2 = p.1 + 1 := by decide +kernel

theorem hmac_next {hash prf : Nat} (h : AMap.get hashToHmac hash = some prf) : prf = hash + 1 := by
  have : ∀ (l : List (Nat × Nat)), (∀ p ∈ l, p.2 = p.1 + 1) → AMap.get l hash = some prf → prf = hash + 1 := by
    intro l
    induction l with
    | nil => intro _ h; cases h
    | cons q l ih =>
      intro hl h
      unfold AMap.get at h
      split at h
      · rename_i e
        injection h with h
        rw [← h, hl q (List.mem_cons_self ..)]
        have : q.1 = hash := by simpa using e
        rw [this]
      · exact ih (fun p hp => hl p (List.mem_cons_of_mem _ hp)) h
  exact this _ hashToHmac_next h

theorem value_getBytes {o : Obj} {v w : Bytes} (h : o.getBytes CKA_VALUE = .ok v) (hw : value o CKA_VALUE = some w) : v = w := by
  unfold Obj.getBytes at h
  rw [value_eq] at hw
  split at h
  · cases h
  · rename_i a ha
    rw [ha] at hw
    injection hw with hw
    unfold Attr.toBytes at h
    split at h
    · cases h
    · injection h with h; exact h.symm.trans hw

/-- The key material that the operation computes from the value of the base key. -/
theorem material {algs : Nat → HashAlg} {prf : Nat} (ha : HashOk (algs prf)) (h0 : 0 < (algs prf).hlen) {key : Obj} {op : Hmac}
    {seed dkm secret : Bytes} {n : Nat} (h1 : tlsPrfInit algs prf key = .ok op) (h2 : prfFinish op seed n = .ok dkm)
    (hv : value key CKA_VALUE = some secret) : dkm.length = n ∧ IsPrf (algs prf) secret seed dkm := by
  obtain ⟨v, hg, rfl⟩ := tlsPrfInit_ok h1
  have := value_getBytes hg hv
  subst this
  exact prfFinish_ok ha h0 (fed_internal ha _ _) h2

theorem tlsSetKey_ok {F : Factory} {o o' : Obj} {v : Bytes} (h : tlsSetKey F o v = .ok o') :
    value o' CKA_VALUE = some v ∧ SameBut [CKA_VALUE, CKA_VALUE_LEN] o o' ∧ Obj.secretClass F.cls = true ∧
      value o' CKA_VALUE_LEN = some (toLE 8 v.length) := by
  unfold tlsSetKey at h
  split at h
  · rename_i hc
    obtain ⟨h1, h2, _⟩ := setKey_sized h
    obtain ⟨w, h3, h4⟩ := h2
    rw [h1] at h3
    injection h3 with h3
    subst h3
    exact ⟨h1, setKey_same h, by rcases hc with e | e <;> rw [e] <;> decide, h4⟩
  · cases h

/-- What `derive` does for each parameter that `new` accepts. -/
theorem derive_master_shape {k : TlsKdf} {algs : Nat → HashAlg} {uid : Bytes} {key : Obj} {t : Template} {out : TlsOut}
    (h : k.deriveMaster algs uid key t = .ok out) : ∃ seed op dkm o, tlsPrfInit algs k.prf key = .ok op ∧
      prfFinish op seed TLS_MASTER_SECRET_SIZE = .ok dkm ∧ out.keys = [o] ∧ value o CKA_VALUE = some dkm ∧
      (seed = if k.mech = CKM_TLS12_EXTENDED_MASTER_KEY_DERIVE ∨ k.mech = CKM_TLS12_EXTENDED_MASTER_KEY_DERIVE_DH then k.seedEms
        else k.seed true) := by
  unfold TlsKdf.deriveMaster at h
  split at h; · cases h
  split at h; · cases h
  split at h; · cases h
  split at h; · cases h
  simp only at h
  split at h; · cases h
  rename_i seed hseed
  split at h; · cases h
  rename_i op hop
  split at h; · cases h
  rename_i dkm hdkm
  split at h; · cases h
  rename_i o ho
  have hs : seed = if k.mech = CKM_TLS12_EXTENDED_MASTER_KEY_DERIVE ∨ k.mech = CKM_TLS12_EXTENDED_MASTER_KEY_DERIVE_DH then k.seedEms
      else k.seed true := by
    split at hseed
    · rename_i c; rw [if_pos c]; injection hseed with e; exact e.symm
    · rename_i c
      rw [if_neg c]
      split at hseed
      · injection hseed with e; exact e.symm
      · cases hseed
  refine ⟨seed, op, dkm, o, hop, hdkm, ?_, (tlsSetKey_ok ho).1, hs⟩
  split at h
  · split at h
    · cases h
    · injection h with h; rw [← h]
  · injection h with h; rw [← h]

/-- The master secret: PRF(pre_master_secret, "master secret", client random + server random), 48 bytes (RFC 5246, section 8.1). -/
theorem C60_master (algs : Nat → HashAlg) (mech hash : Nat) (client server : Bytes) (version : Bool) (uid : Nat → Bytes) (key : Obj)
    (t : Template) (k : TlsKdf) (out : TlsOut) (secret : Bytes) (ha : HashOk (algs (hash + 1))) (h0 : 0 < (algs (hash + 1)).hlen)
    (hk : TlsKdf.new mech (.master hash client server version) = .ok k) (h : (k.derive algs uid key t).1 = .ok out)
    (hv : value key CKA_VALUE = some secret) :
    ∃ o v, out.keys = [o] ∧ value o CKA_VALUE = some v ∧ v.length = 48 ∧
      IsPrf (algs (hash + 1)) secret (text "master secret" ++ client ++ server) v := by
  unfold TlsKdf.new at hk
  simp only at hk
  have hm : mech = CKM_TLS12_MASTER_KEY_DERIVE ∨ mech = CKM_TLS12_MASTER_KEY_DERIVE_DH := by
    apply Classical.byContradiction
    intro hm
    rw [if_neg hm] at hk
    repeat' (split at hk)
    all_goals cases hk
  rw [if_pos hm] at hk
  unfold TlsKdf.newMaster at hk
  split at hk; · cases hk
  split at hk; · cases hk
  rename_i prf hprf
  split at hk; · cases hk
  injection hk with hk
  have hp := hmac_next hprf
  subst hp
  subst hk
  unfold TlsKdf.derive at h
  simp only [Bool.false_eq_true, if_false] at h
  rw [if_pos (by rcases hm with e | e <;> simp [e])] at h
  obtain ⟨seed, op, dkm, o, h1, h2, h3, h4, h5⟩ := derive_master_shape h
  obtain ⟨m1, m2⟩ := material ha h0 h1 h2 hv
  refine ⟨o, dkm, h3, h4, m1, ?_⟩
  rw [if_neg (by show ¬ (mech = _ ∨ mech = _); rcases hm with e | e <;> rw [e] <;> decide)] at h5
  rw [h5] at m2
  simp only [TlsKdf.seed, if_true, List.append_nil] at m2
  rw [List.append_assoc]
  exact m2

/-- The extended master secret: PRF(pre_master_secret, "extended master secret", session hash), 48 bytes (RFC 7627, section 4). -/
theorem C60_ems (algs : Nat → HashAlg) (mech hash : Nat) (sessionHash : Bytes) (version : Bool) (uid : Nat → Bytes) (key : Obj)
    (t : Template) (k : TlsKdf) (out : TlsOut) (secret : Bytes) (ha : HashOk (algs (hash + 1))) (h0 : 0 < (algs (hash + 1)).hlen)
    (hk : TlsKdf.new mech (.ems hash sessionHash version) = .ok k) (h : (k.derive algs uid key t).1 = .ok out)
    (hv : value key CKA_VALUE = some secret) :
    ∃ o v, out.keys = [o] ∧ value o CKA_VALUE = some v ∧ v.length = 48 ∧
      IsPrf (algs (hash + 1)) secret (text "extended master secret" ++ sessionHash) v := by
  unfold TlsKdf.new at hk
  simp only at hk
  split at hk; · cases hk
  split at hk; · cases hk
  split at hk; · cases hk
  split at hk
  · rename_i hm
    unfold TlsKdf.newEms at hk
    split at hk; · cases hk
    rename_i prf hprf
    split at hk; · cases hk
    injection hk with hk
    have hp := hmac_next hprf
    subst hp
    subst hk
    unfold TlsKdf.derive at h
    simp only [Bool.false_eq_true, if_false] at h
    rw [if_pos (by rcases hm with e | e <;> simp [e])] at h
    obtain ⟨seed, op, dkm, o, h1, h2, h3, h4, h5⟩ := derive_master_shape h
    obtain ⟨m1, m2⟩ := material ha h0 h1 h2 hv
    refine ⟨o, dkm, h3, h4, m1, ?_⟩
    rw [if_pos (by rcases hm with e | e <;> simp [e])] at h5
    rw [h5] at m2
    exact m2
  · cases hk

/-- The length read from the new object is the one in the template. -/
theorem told_len {o : Obj} {n : Nat} {c : CkAttr} {a : Attr} (hn : o.getUlong CKA_VALUE_LEN = .ok n) (h1 : Attr.fromCk c = .ok a)
    (ht : c.typ = CKA_VALUE_LEN) (h2 : value o CKA_VALUE_LEN = some a.value) : c.toUlong = .ok n := by
  unfold Attr.fromCk at h1
  rw [ht, show attrKind CKA_VALUE_LEN = some .num by decide +kernel] at h1
  simp only at h1
  split at h1
  · rename_i m hm
    injection h1 with h1
    rw [hm]
    have hlt : m < 2 ^ 64 := by
      unfold CkAttr.toUlong at hm
      split at hm
      · cases hm
      · rename_i hl
        split at hm
        · cases hm
        · rename_i bs hb
          injection hm with hm
          rw [← hm]
          refine fromLE_lt8 bs ?_
          rw [hb] at hl
          simpa [PVal.len] using hl
    unfold Obj.getUlong at hn
    rw [value_eq] at h2
    split at hn
    · cases hn
    · rename_i x hx
      rw [hx] at h2
      injection h2 with h2
      unfold Attr.toUlong at hn
      split at hn
      · cases hn
      · split at hn
        · cases hn
        · injection hn with hn
          rw [← hn, h2, ← h1]
          congr 1
          exact (fromLE_toLE 8 m (by rw [show (256 : Nat) ^ 8 = 2 ^ 64 by decide]; exact hlt)).symm
  · cases h1

/-- CKM_TLS_KDF: PRF(key, label, client random + server random + context), of the length in CKA_VALUE_LEN. -/
theorem C60_kdf (algs : Nat → HashAlg) (mech hash : Nat) (label client server context : Bytes) (uid : Nat → Bytes) (key : Obj)
    (t : Template) (k : TlsKdf) (out : TlsOut) (secret : Bytes) (ha : HashOk (algs (hash + 1))) (h0 : 0 < (algs (hash + 1)).hlen)
    (hk : TlsKdf.new mech (.kdf hash label client server context) = .ok k) (h : (k.derive algs uid key t).1 = .ok out)
    (hv : value key CKA_VALUE = some secret) :
    ∃ o v, out.keys = [o] ∧ value o CKA_VALUE = some v ∧ value o CKA_VALUE_LEN = some (toLE 8 v.length) ∧
      (∀ c ∈ t, c.typ = CKA_VALUE_LEN → c.toUlong = .ok v.length) ∧
      IsPrf (algs (hash + 1)) secret (label ++ client ++ server ++ context) v := by
  unfold TlsKdf.new at hk
  simp only at hk
  split at hk; · cases hk
  rename_i n1
  split at hk; · cases hk
  rename_i n2
  split at hk
  · rename_i hm
    unfold TlsKdf.newKdf at hk
    split at hk; · cases hk
    split at hk; · cases hk
    split at hk; · cases hk
    rename_i prf hprf
    injection hk with hk
    have hp := hmac_next hprf
    subst hp
    subst hk
    unfold TlsKdf.derive at h
    simp only [Bool.false_eq_true, if_false] at h
    rw [if_neg (by rcases hm with e | e <;> rw [e] <;> decide), if_neg (by rcases hm with e | e <;> rw [e] <;> decide), if_pos hm] at h
    unfold TlsKdf.deriveGeneric at h
    split at h; · cases h
    simp only at h
    split at h; · cases h
    rename_i F hF
    split at h; · cases h
    rename_i od hod
    split at h; · cases h
    rename_i n hn
    split at h; · cases h
    rename_i op hop
    split at h; · cases h
    rename_i dkm hdkm
    split at h; · cases h
    rename_i o ho
    injection h with h
    obtain ⟨m1, m2⟩ := material ha h0 hop hdkm hv
    obtain ⟨s1, _, _, s4⟩ := tlsSetKey_ok ho
    refine ⟨o, dkm, by rw [← h], s1, s4, ?_, ?_⟩
    · intro c hc ht
      obtain ⟨kk, hkk⟩ := keyTemplateFactory_mem hF
      unfold tlsKeyDerive at hod
      split at hod
      · obtain ⟨a, ha1, ha2⟩ := derive_given hkk hod (by rw [← ht]; simp [ht]; decide) (by decide) notIgnored_valueLen
          (mem_addMissingUlong (mem_addMissingUlong hc)) ht
        rw [m1]
        exact told_len hn ha1 ht ha2
      · cases hod
    simp only [TlsKdf.seed, if_true] at m2
    rw [List.append_assoc label client server]
    exact m2
  · rename_i n3
    split at hk <;> cases hk

/-! ## The connection keys -/

/-- The value of boolean attribute `t` of the new key is that of the base key. -/
def SameFlag (key o : Obj) (t : Nat) : Prop := ∀ b, key.getBool t = .ok b → value o t = some [if b then 1 else 0]

theorem tlsPair_ok {u1 u2 : Bytes} {t : Template} {key : Obj} {dkm : Bytes} {i len j : Nat} {l : List Obj}
    (h : tlsPair u1 u2 t key dkm i len = .ok (l, j)) : ∃ o1 o2 F k d1 d2, l = [o1, o2] ∧ j = i + len + len ∧ (k, F) ∈ registry ∧
      value o1 CKA_VALUE = some ((dkm.drop i).take len) ∧ value o2 CKA_VALUE = some ((dkm.drop (i + len)).take len) ∧
      keyDerive F u1 t key = .ok d1 ∧ keyDerive F u2 t key = .ok d2 ∧
      SameBut [CKA_VALUE, CKA_VALUE_LEN] d1 o1 ∧ SameBut [CKA_VALUE, CKA_VALUE_LEN] d2 o2 := by
  have kd : ∀ {F : Factory} {u : Bytes} {o : Obj}, tlsKeyDerive F u t key = .ok o → keyDerive F u t key = .ok o := by
    intro F u o h
    unfold tlsKeyDerive at h
    split at h
    · exact h
    · cases h
  unfold tlsPair at h
  split at h; · cases h
  rename_i F hF
  split at h; · cases h
  rename_i d1 h1
  split at h; · cases h
  rename_i o1 h2
  split at h; · cases h
  rename_i d2 h3
  split at h; · cases h
  rename_i o2 h4
  injection h with h
  injection h with e1 e2
  obtain ⟨k, hk⟩ := keyTemplateFactory_mem hF
  obtain ⟨a1, a2, _, _⟩ := tlsSetKey_ok h2
  obtain ⟨b1, b2, _, _⟩ := tlsSetKey_ok h4
  exact ⟨o1, o2, F, k, d1, d2, e1.symm, e2.symm, hk, a1, b1, kd h1, kd h3, a2, b2⟩

/-- A pair made from a template whose entries for `t` say `b`. -/
theorem pair_flag {u1 u2 : Bytes} {tm : Template} {key : Obj} {dkm : Bytes} {i len j : Nat} {l : List Obj}
    (h : tlsPairIf u1 u2 tm key dkm i len = .ok (l, j)) {t : Nat} (ht : t = CKA_SENSITIVE ∨ t = CKA_EXTRACTABLE) {b : Bool} {c : CkAttr}
    (hc : c ∈ tm) (hct : c.typ = t) (hb : c.toBool = .ok b) : ∀ o ∈ l, value o t = some [if b then 1 else 0] := by
  have t1 : t ∉ [CKA_LOCAL, CKA_ALWAYS_SENSITIVE, CKA_NEVER_EXTRACTABLE, CKA_UNIQUE_ID] := by rcases ht with e | e <;> rw [e] <;> decide
  have t2 : t ∉ [CKA_VALUE, CKA_VALUE_LEN] := by rcases ht with e | e <;> rw [e] <;> decide
  have t3 : t ≠ CKA_CLASS := by rcases ht with e | e <;> rw [e] <;> decide
  have t4 : attrKind t = some .bool := by rcases ht with e | e <;> rw [e] <;> decide +kernel
  have t5 : allFactories (notIgnored t) = true := by
    rcases ht with e | e <;> rw [e]
    · exact notIgnored_sensitive
    · exact notIgnored_extractable
  unfold tlsPairIf at h
  split at h
  · obtain ⟨o1, o2, F, k, d1, d2, rfl, _, hk, _, _, e1, e2, s1, s2⟩ := tlsPair_ok h
    obtain ⟨a1, f1, v1⟩ := derive_given hk e1 t1 t3 t5 hc hct
    obtain ⟨a2, f2, v2⟩ := derive_given hk e2 t1 t3 t5 hc hct
    intro o ho
    rcases List.mem_cons.mp ho with rfl | ho
    · rw [same_value s1 t2, v1, fromCk_boolean (by rw [hct]; exact t4) f1 hb]
    · rcases List.mem_cons.mp ho with rfl | ho
      · rw [same_value s2 t2, v2, fromCk_boolean (by rw [hct]; exact t4) f2 hb]
      · cases ho
  · injection h with h
    injection h with h _
    subst h
    intro o ho
    cases ho

theorem wantBool_ok {c : CkAttr} {b : Bool} (h : wantBool c b = .ok ()) : c.toBool = .ok b := by
  unfold wantBool at h
  split at h
  · cases h
  · rename_i v hv
    split at h
    · cases h
    · rename_i hn
      have : v = b := by simpa using hn
      rw [hv, this]

/-- The template of the connection keys has both flags, with the values of the master secret. -/
theorem expTemplate_flag {keylen : Nat} {key : Obj} {t t' : Template} (h : expTemplate keylen key t = .ok t') :
    (∃ c ∈ t', c.typ = CKA_SENSITIVE ∧ c.toBool = .ok key.isSensitive) ∧
    (∃ c ∈ t', c.typ = CKA_EXTRACTABLE ∧ c.toBool = .ok key.isExtractable) := by
  unfold expTemplate at h
  simp only at h
  split at h
  · cases h
  · rename_i hc
    injection h with h
    rw [h] at hc
    have all := checkAll_ok hc
    have e1 : ∃ c ∈ t', c.typ = CKA_SENSITIVE := by
      rw [← h]
      obtain ⟨d, hd, e⟩ := addMissing_has ((((Template.addMissingUlong (Template.addMissingUlong (Template.addMissingUlong t CKA_CLASS
        CKO_SECRET_KEY) CKA_KEY_TYPE CKK_GENERIC_SECRET) CKA_VALUE_LEN keylen).addMissing (.ofBool CKA_ENCRYPT true)).addMissing
        (.ofBool CKA_DECRYPT true)).addMissing (.ofBool CKA_DERIVE true)) (.ofBool CKA_SENSITIVE key.isSensitive)
      exact ⟨d, mem_addMissingT hd, e⟩
    have e2 : ∃ c ∈ t', c.typ = CKA_EXTRACTABLE := by
      rw [← h]
      exact addMissing_has _ (.ofBool CKA_EXTRACTABLE key.isExtractable)
    obtain ⟨c1, m1, e1⟩ := e1
    obtain ⟨c2, m2, e2⟩ := e2
    have a1 := all c1 m1
    have a2 := all c2 m2
    unfold expAttrCheck at a1 a2
    rw [e1, if_neg (by decide), if_pos rfl] at a1
    rw [e2, if_neg (by decide), if_neg (by decide), if_pos rfl] at a2
    exact ⟨⟨c1, m1, e1, wantBool_ok a1⟩, ⟨c2, m2, e2, wantBool_ok a2⟩⟩

/-- The parts of a successful derivation of connection keys. -/
theorem deriveKeys_shape {k : TlsKdf} {algs : Nat → HashAlg} {uid : Nat → Bytes} {key : Obj} {t : Template} {out : TlsOut}
    (h : k.deriveKeys algs uid key t = .ok out) : ∃ t' op dkm macs keys i j, expTemplate k.keylen key t = .ok t' ∧
      tlsPrfInit algs k.prf key = .ok op ∧ prfFinish op (k.seed false) (2 * (k.maclen + k.keylen + k.ivlen)) = .ok dkm ∧
      tlsPairIf (uid 0) (uid 1) (macTemplate key) key dkm 0 k.maclen = .ok (macs, i) ∧
      tlsPairIf (uid 2) (uid 3) t' key dkm i k.keylen = .ok (keys, j) ∧ out.keys = macs ++ keys ∧
      out.ivs = if k.ivlen > 0 then some ((dkm.drop j).take k.ivlen, (dkm.drop (j + k.ivlen)).take k.ivlen) else none := by
  unfold TlsKdf.deriveKeys at h
  split at h; · cases h
  split at h; · cases h
  rename_i t' ht'
  split at h; · cases h
  rename_i op hop
  split at h; · cases h
  rename_i dkm hdkm
  split at h; · cases h
  rename_i macs i hmacs
  split at h; · cases h
  rename_i keys j hkeys
  refine ⟨t', op, dkm, macs, keys, i, j, ht', hop, hdkm, hmacs, hkeys, ?_⟩
  by_cases c : k.ivlen > 0
  · rw [if_pos c] at h
    rw [if_pos c]
    split at h
    · injection h with h; rw [← h]; exact ⟨rfl, rfl⟩
    · cases h
  · rw [if_neg c] at h
    rw [if_neg c]
    injection h with h; rw [← h]; exact ⟨rfl, rfl⟩

/-- What `new` makes of the parameter of the connection key mechanisms. -/
theorem newKeyMat_shape {mech hash macBits keyBits ivBits : Nat} {isExport mat : Bool} {client server : Bytes} {k : TlsKdf}
    (hk : TlsKdf.new mech (.keyMat hash macBits keyBits ivBits isExport client server mat) = .ok k) :
    (mech = CKM_TLS12_KEY_AND_MAC_DERIVE ∨ mech = CKM_TLS12_KEY_SAFE_DERIVE) ∧ k.mech = mech ∧ k.fin = false ∧ k.prf = hash + 1 ∧
      k.label = tlsExpansionLabel ∧ k.client = client ∧ k.server = server ∧ k.context = [] ∧ k.maclen = macBits / 8 ∧
      k.keylen = (if keyBits / 8 > 0 then keyBits / 8 else 48) ∧
      k.ivlen = (if mech = CKM_TLS12_KEY_SAFE_DERIVE then 0 else ivBits / 8) := by
  unfold TlsKdf.new at hk
  simp only at hk
  split at hk; · cases hk
  split at hk
  · rename_i hm
    unfold TlsKdf.newKeyMat at hk
    simp only at hk
    split at hk; · cases hk
    split at hk; · cases hk
    split at hk; · cases hk
    rename_i prf hprf
    split at hk; · cases hk
    injection hk with hk
    have hp := hmac_next hprf
    subst hp
    subst hk
    exact ⟨hm, rfl, rfl, rfl, rfl, rfl, rfl, rfl, rfl, rfl, rfl⟩
  · split at hk; · cases hk
    split at hk <;> cases hk

theorem derive_keyMat {mech : Nat} {k : TlsKdf} (hm : mech = CKM_TLS12_KEY_AND_MAC_DERIVE ∨ mech = CKM_TLS12_KEY_SAFE_DERIVE)
    (e : k.mech = mech) (hf : k.fin = false) (algs : Nat → HashAlg) (uid : Nat → Bytes) (key : Obj) (t : Template) :
    (k.derive algs uid key t).1 = TlsKdf.deriveKeys { k with fin := true } algs uid key t := by
  unfold TlsKdf.derive
  simp only [hf, Bool.false_eq_true, if_false, e]
  rw [if_neg (by rcases hm with e | e <;> rw [e] <;> decide), if_pos hm]

/-- The connection keys: the key block PRF(master_secret, "key expansion", server random + client random) is cut, in this order, into the
client and server MAC keys, the client and server keys, the client and server IVs (RFC 5246, section 6.3).

Partial: the key size must be at least one byte; see `C60_zero_violation`. -/
theorem C60_expand_partial (algs : Nat → HashAlg) (mech hash macBits keyBits ivBits : Nat) (isExport mat : Bool) (client server : Bytes)
    (uid : Nat → Bytes) (key : Obj) (t : Template) (k : TlsKdf) (out : TlsOut) (secret : Bytes) (ha : HashOk (algs (hash + 1)))
    (h0 : 0 < (algs (hash + 1)).hlen) (hkey : 8 ≤ keyBits)
    (hk : TlsKdf.new mech (.keyMat hash macBits keyBits ivBits isExport client server mat) = .ok k)
    (h : (k.derive algs uid key t).1 = .ok out) (hv : value key CKA_VALUE = some secret) :
    ∃ m1 m2 k1 k2 i1 i2 : Bytes, m1.length = macBits / 8 ∧ m2.length = macBits / 8 ∧ k1.length = keyBits / 8 ∧ k2.length = keyBits / 8 ∧
      i1.length = (if mech = CKM_TLS12_KEY_SAFE_DERIVE then 0 else ivBits / 8) ∧
      i2.length = (if mech = CKM_TLS12_KEY_SAFE_DERIVE then 0 else ivBits / 8) ∧
      IsPrf (algs (hash + 1)) secret (text "key expansion" ++ server ++ client) (m1 ++ m2 ++ k1 ++ k2 ++ i1 ++ i2) ∧
      out.keys.map (fun o => value o CKA_VALUE) = (if macBits / 8 = 0 then [] else [some m1, some m2]) ++ [some k1, some k2] ∧
      out.ivs = if i1.length = 0 then none else some (i1, i2) := by
  obtain ⟨hm, e1, e2, e3, e4, e5, e6, e7, e8, e9, e10⟩ := newKeyMat_shape hk
  rw [derive_keyMat hm e1 e2] at h
  obtain ⟨t', op, dkm, macs, keys, i, j, h1, h2, h3, h4, h5, h6, h7⟩ := deriveKeys_shape h
  simp only [TlsKdf.seed, e3, e4, e5, e6, e7, e8, e9, e10, List.append_nil, Bool.false_eq_true, if_false] at h1 h2 h3 h4 h5 h6 h7
  have hkl : (if keyBits / 8 > 0 then keyBits / 8 else 48) = keyBits / 8 := if_pos (by omega)
  rw [hkl] at h1 h3 h5
  obtain ⟨m1, m2⟩ := material ha h0 h2 h3 hv
  generalize hil : (if mech = CKM_TLS12_KEY_SAFE_DERIVE then 0 else ivBits / 8) = iv at *
  generalize hml : macBits / 8 = m at *
  generalize hkk : keyBits / 8 = n at *
  have hn : n > 0 := by omega
  have hi : i = m + m ∧ macs.map (fun o => value o CKA_VALUE) =
      (if m = 0 then [] else [some (dkm.take m), some ((dkm.drop m).take m)]) := by
    unfold tlsPairIf at h4
    split at h4
    · obtain ⟨o1, o2, F, kk, d1, d2, rfl, ej, _, v1, v2, _⟩ := tlsPair_ok h4
      refine ⟨by omega, ?_⟩
      rw [if_neg (by omega)]
      rw [List.drop_zero] at v1
      rw [Nat.zero_add] at v2
      simp [v1, v2]
    · injection h4 with h4
      injection h4 with a b
      refine ⟨by omega, ?_⟩
      rw [← a, if_pos (by omega)]; rfl
  obtain ⟨hi, hmacs⟩ := hi
  unfold tlsPairIf at h5
  rw [if_pos hn] at h5
  obtain ⟨o1, o2, F, kk, d1, d2, rfl, ej, _, v1, v2, _⟩ := tlsPair_ok h5
  refine ⟨dkm.take m, (dkm.drop m).take m, (dkm.drop i).take n, (dkm.drop (i + n)).take n, (dkm.drop j).take iv, (dkm.drop (j + iv)).take iv,
    ?_, ?_, ?_, ?_, ?_, ?_, ?_, ?_, ?_⟩
  · rw [List.length_take]; omega
  · rw [List.length_take, List.length_drop]; omega
  · rw [List.length_take, List.length_drop]; omega
  · rw [List.length_take, List.length_drop]; omega
  · rw [List.length_take, List.length_drop]; omega
  · rw [List.length_take, List.length_drop]; omega
  · have cut : dkm.take m ++ (dkm.drop m).take m ++ (dkm.drop i).take n ++ (dkm.drop (i + n)).take n ++ (dkm.drop j).take iv ++
        (dkm.drop (j + iv)).take iv = dkm := by
      rw [← List.take_add, hi, ← List.take_add, ← List.take_add, show j = m + m + n + n by omega, ← List.take_add, ← List.take_add]
      exact List.take_of_length_le (by omega)
    rw [cut, List.append_assoc]
    exact m2
  · rw [h6, List.map_append, hmacs]
    simp [v1, v2]
  · rw [h7]
    have : ((dkm.drop j).take iv).length = iv := by rw [List.length_take, List.length_drop]; omega
    rw [this]
    by_cases c : iv = 0
    · rw [if_pos c, if_neg (by omega)]
    · rw [if_neg c, if_pos (by omega)]

/-- Every connection key is exactly as sensitive and as extractable as the master secret, whatever the template says. -/
theorem C60_protect (algs : Nat → HashAlg) (mech hash macBits keyBits ivBits : Nat) (isExport mat : Bool) (client server : Bytes)
    (uid : Nat → Bytes) (key : Obj) (t : Template) (k : TlsKdf) (out : TlsOut) (hcls : Obj.secretClass key.cls = true)
    (hk : TlsKdf.new mech (.keyMat hash macBits keyBits ivBits isExport client server mat) = .ok k)
    (h : (k.derive algs uid key t).1 = .ok out) :
    ∀ o ∈ out.keys, SameFlag key o CKA_SENSITIVE ∧ SameFlag key o CKA_EXTRACTABLE := by
  obtain ⟨hm, e1, e2, _⟩ := newKeyMat_shape hk
  rw [derive_keyMat hm e1 e2] at h
  obtain ⟨t', op, dkm, macs, keys, i, j, h1, _, _, h4, h5, h6, _⟩ := deriveKeys_shape h
  obtain ⟨⟨c1, p1, p2, p3⟩, ⟨c2, q1, q2, q3⟩⟩ := expTemplate_flag h1
  intro o ho
  rw [h6] at ho
  have bd : ∀ (t : Nat) (b d : Bool), key.getBool t = .ok b → (CkAttr.ofBool t (boolOrDefault key t d)).toBool = .ok b := by
    intro t b d hb
    unfold boolOrDefault
    rw [hb]
    cases b <;> rfl
  rcases List.mem_append.mp ho with ho | ho
  · refine ⟨fun b hb => ?_, fun b hb => ?_⟩
    · exact pair_flag h4 (.inl rfl) (c := .ofBool CKA_SENSITIVE (boolOrDefault key CKA_SENSITIVE true)) (by simp [macTemplate]) rfl (bd _ _ _ hb) o ho
    · exact pair_flag h4 (.inr rfl) (c := .ofBool CKA_EXTRACTABLE (boolOrDefault key CKA_EXTRACTABLE false)) (by simp [macTemplate]) rfl (bd _ _ _ hb) o ho
  · refine ⟨fun b hb => ?_, fun b hb => ?_⟩
    · refine pair_flag h5 (.inl rfl) p1 p2 ?_ o ho
      rw [p3]
      unfold Obj.isSensitive
      rw [if_pos hcls, boolOr_getBool hb]
    · refine pair_flag h5 (.inr rfl) q1 q2 ?_ o ho
      rw [q3]
      unfold Obj.isExtractable
      rw [if_pos hcls, boolOr_getBool hb]

/-- An operation derives once. -/
theorem C60_once (k : TlsKdf) (algs : Nat → HashAlg) (uid uid' : Nat → Bytes) (key key' : Obj) (t t' : Template) :
    (((k.derive algs uid key t).2).derive algs uid' key' t').1 = .error .operationNotInitialized := by
  have : (k.derive algs uid key t).2.fin = true := by
    unfold TlsKdf.derive
    split
    · assumption
    · rfl
  unfold TlsKdf.derive at this ⊢
  rw [if_pos this]

/-! ## Examples and violations -/

/-- A pre-master or master secret of 48 bytes: sensitive, not extractable, usable for derivation. -/
def exTlsTmpl : Template :=
  [.ofUlong CKA_CLASS CKO_SECRET_KEY, .ofUlong CKA_KEY_TYPE CKK_GENERIC_SECRET, .mk' CKA_VALUE ((List.range 48).map UInt8.ofNat),
   .ofBool CKA_DERIVE true, .ofBool CKA_SENSITIVE true, .ofBool CKA_EXTRACTABLE false]
def exTlsKey : Obj := okObj (factoriesCreate exOracle exUid exTlsTmpl)
def exClientR : Bytes := List.replicate 32 7
def exServerR : Bytes := List.replicate 32 9
def exTlsUid (n : Nat) : Bytes := exUid2 ++ [UInt8.ofNat n]
/-- The outcome of a derivation with the toy hash. -/
def exTlsRun (mech : Nat) (p : TlsParam) (t : Template) : Res TlsOut :=
  match TlsKdf.new mech p with
  | .error r => .error r
  | .ok k => (k.derive (fun _ => exHash) exTlsUid exTlsKey t).1
/-- The keys of an outcome. -/
def exTlsKeys (r : Res TlsOut) : List Obj :=
  match r with
  | .ok o => o.keys
  | .error _ => []

/-- Every mechanism succeeds on it; the values are not trivial. -/
example : factoriesCreate exOracle exUid exTlsTmpl = .ok exTlsKey ∧ Obj.secretClass exTlsKey.cls = true ∧
    exTlsKey.getBool CKA_SENSITIVE = .ok true ∧ exTlsKey.getBool CKA_EXTRACTABLE = .ok false ∧
    ((exTlsKeys (exTlsRun CKM_TLS12_MASTER_KEY_DERIVE (.master CKM_SHA256 exClientR exServerR true) [])).map fun o =>
      (o.getBytes CKA_VALUE).map List.length) = [.ok 48] ∧
    ((exTlsKeys (exTlsRun CKM_TLS12_EXTENDED_MASTER_KEY_DERIVE_DH (.ems CKM_SHA384 [1, 2, 3] false) [])).map fun o =>
      (o.getBytes CKA_VALUE).map List.length) = [.ok 48] := by
  decide +kernel

/-- Connection keys: two MAC keys of 2 bytes, two keys of 3 bytes, two IVs of 1 byte. -/
def exTlsConn : Res TlsOut :=
  exTlsRun CKM_TLS12_KEY_AND_MAC_DERIVE (.keyMat CKM_SHA256 16 24 8 false exClientR exServerR true) []

example : (exTlsKeys exTlsConn).map (fun o => ((o.getBytes CKA_VALUE).map List.length, o.getBool CKA_SENSITIVE, o.getBool CKA_EXTRACTABLE)) =
    [(.ok 2, .ok true, .ok false), (.ok 2, .ok true, .ok false), (.ok 3, .ok true, .ok false), (.ok 3, .ok true, .ok false)] := by
  decide +kernel

/-- A template that asks for something else is refused. -/
example : exTlsRun CKM_TLS12_KEY_AND_MAC_DERIVE (.keyMat CKM_SHA256 16 24 8 false exClientR exServerR true) [.ofBool CKA_SENSITIVE false] =
    .error .attrValueInvalid := by decide +kernel

/-- The outcome itself. -/
def exTlsOk (r : Res TlsOut) : TlsOut :=
  match r with
  | .ok o => o
  | .error _ => ⟨[], none, none⟩
/-- Only MAC keys and IVs are asked for. -/
def exTlsNull : Res TlsOut := exTlsRun CKM_TLS12_KEY_AND_MAC_DERIVE (.keyMat CKM_SHA256 16 0 16 false exClientR exServerR true) []
def exTlsGrab : Res TlsOut :=
  exTlsRun CKM_TLS_KDF (.kdf CKM_SHA256 (text "key expansion") exServerR exClientR [])
    [.ofUlong CKA_VALUE_LEN 10, .ofBool CKA_SENSITIVE false, .ofBool CKA_EXTRACTABLE true]

/-- The claim fails for a key size of 0 (a suite that only authenticates): the code replaces it by 48 bytes, returns two keys that the
parameter does not ask for and takes the IVs from 96 bytes further on. -/
theorem C60_zero_violation : ∃ (key : Obj) (secret : Bytes) (out : TlsOut) (m1 m2 i1 i2 : Bytes),
    value key CKA_VALUE = some secret ∧
    (match TlsKdf.new CKM_TLS12_KEY_AND_MAC_DERIVE (.keyMat CKM_SHA256 16 0 16 false exClientR exServerR true) with
      | .ok k => (k.derive (fun _ => exHash) exTlsUid key []).1
      | .error r => .error r) = .ok out ∧ out.keys.length = 4 ∧
    (out.keys.take 2).map (fun o => value o CKA_VALUE) = [some m1, some m2] ∧ out.ivs = some (i1, i2) ∧
    i1.length = 2 ∧ i2.length = 2 ∧
    ¬ IsPrf exHash secret (text "key expansion" ++ exServerR ++ exClientR) (m1 ++ m2 ++ i1 ++ i2) := by
  refine ⟨exTlsKey, (List.range 48).map UInt8.ofNat, exTlsOk exTlsNull, [168, 6], [92, 6], [208, 6], [132, 6], by decide +kernel, ?_,
    by decide +kernel, by decide +kernel, by decide +kernel, rfl, rfl, ?_⟩
  · show exTlsNull = .ok (exTlsOk exTlsNull)
    have h : (match exTlsNull with | .ok _ => true | .error _ => false) = true := by decide +kernel
    generalize exTlsNull = r at h ⊢
    cases r with
    | ok o => rfl
    | error r => cases h
  · intro h
    exact absurd (h 4 (by decide)) (by decide +kernel)

/-- The protection of the connection keys does not hold either: with CKM_TLS_KDF, the label "key expansion" and the two randoms swapped, the
same master secret gives the same bytes as one key that the template makes readable. -/
theorem C60_launder_violation : ∃ (o : Obj) (conn out : TlsOut) (b : Bytes), IsTrue exTlsKey CKA_SENSITIVE ∧ IsFalse exTlsKey CKA_EXTRACTABLE ∧
    exTlsConn = .ok conn ∧ conn.keys.length = 4 ∧ (∀ o ∈ conn.keys, IsTrue o CKA_SENSITIVE ∧ IsFalse o CKA_EXTRACTABLE) ∧
    exTlsGrab = .ok out ∧ out.keys = [o] ∧
    getObjectAttributes o [⟨CKA_VALUE, false, 10, List.replicate 10 0⟩] = (.ok (), [⟨CKA_VALUE, false, 10, b⟩]) ∧
    (conn.keys.map fun o => (value o CKA_VALUE).getD []).flatten = b := by
  have ok : ∀ r : Res TlsOut, (match r with | .ok _ => true | .error _ => false) = true → r = .ok (exTlsOk r) := by
    intro r h
    cases r with
    | ok o => rfl
    | error r => cases h
  refine ⟨(exTlsOk exTlsGrab).keys.headD exTlsKey, exTlsOk exTlsConn, exTlsOk exTlsGrab, [168, 6, 92, 6, 16, 6, 196, 6, 120, 6],
    ⟨1, by decide +kernel⟩, ?_, ok _ (by decide +kernel), by decide +kernel, ?_, ok _ (by decide +kernel), by decide +kernel, by decide +kernel,
    by decide +kernel⟩
  · unfold IsFalse; decide +kernel
  · have h : ∀ o ∈ (exTlsOk exTlsConn).keys, value o CKA_SENSITIVE = some [1] ∧ value o CKA_EXTRACTABLE = some [0] := by decide +kernel
    intro o ho
    exact ⟨⟨1, (h o ho).1, by decide⟩, (h o ho).2⟩

end Kry
