import Verif.Model.HashKdf
import Verif.Props.C60

/-!
# C62: SSH key derivation

`C62_value`: a derived object holds exactly the bytes of RFC 4253, section 7.2, of the length in the template.  `C62_kind`: letters A and B (IVs)
give a data object, C to F (keys) a secret key.  `C62_once`: an operation derives once.  `C62_launder_violation`: whenever the letter A or
B occurs in the exchange hash or the session id, the bytes of a key C to F can be had as a readable data object (`C62_launder` shows it
for every such input).  `C62_size_violation`: HMAC keys of a wrong size.
-/

namespace Kry
namespace Spec

/-- RFC 4253, 7.2: K1 = HASH(K || H || X || session_id), K2 = HASH(K || H || K1), K3 = HASH(K || H || K1 || K2), ...; this is
K1 || ... || Kn. -/
def sshStream (a : HashAlg) (K H : Bytes) (X : UInt8) (sid : Bytes) : Nat → Bytes
  | 0 => []
  | 1 => a.h (K ++ H ++ [X] ++ sid)
  | n + 2 => sshStream a K H X sid (n + 1) ++ a.h (K ++ H ++ sshStream a K H X sid (n + 1))

/-- `out` is the start of the stream. -/
def IsSsh (a : HashAlg) (K H : Bytes) (X : UInt8) (sid out : Bytes) : Prop :=
  ∀ n, out.length ≤ n * a.hlen → out <+: sshStream a K H X sid n

end Spec

open Spec

theorem sshStream_length {a : HashAlg} (ha : HashOk a) (K H : Bytes) (X : UInt8) (sid : Bytes) :
    ∀ n, (sshStream a K H X sid n).length = n * a.hlen
  | 0 => by simp [sshStream]
  | 1 => by simp [sshStream, ha.size]
  | n + 2 => by rw [sshStream, List.length_append, sshStream_length ha K H X sid (n + 1), ha.size]; rw [Nat.succ_mul (n + 1)]

theorem sshStream_prefix (a : HashAlg) (K H : Bytes) (X : UInt8) (sid : Bytes) {n m : Nat} (h : n ≤ m) :
    sshStream a K H X sid n <+: sshStream a K H X sid m := by
  induction m with
  | zero => rw [Nat.le_zero.mp h]; exact List.prefix_rfl
  | succ m ih =>
    by_cases e : n = m + 1
    · rw [e]; exact List.prefix_rfl
    · refine (ih (by omega)).trans ?_
      cases m with
      | zero => simp [sshStream]
      | succ m => rw [show m + 1 + 1 = m + 2 from rfl, sshStream]; exact List.prefix_append ..

theorem take_ssh {a : HashAlg} (ha : HashOk a) (K H : Bytes) (X : UInt8) (sid : Bytes) (n r : Nat) (h : r ≤ n * a.hlen) :
    ((sshStream a K H X sid n).take r).length = r ∧ IsSsh a K H X sid ((sshStream a K H X sid n).take r) := by
  have hl : ((sshStream a K H X sid n).take r).length = r := by rw [List.length_take, sshStream_length ha]; omega
  refine ⟨hl, ?_⟩
  intro m hm
  rw [hl] at hm
  by_cases e : n ≤ m
  · exact (List.take_prefix ..).trans (sshStream_prefix a K H X sid e)
  · obtain ⟨x, hx⟩ := sshStream_prefix a K H X sid (show m ≤ n by omega)
    rw [← hx, List.take_append_of_le_length (by rw [sshStream_length ha]; exact hm)]
    exact List.take_prefix ..

/-- What a hash operation gives for several pieces. -/
theorem hashOp_run (o : DigestOp) (hf : o.fin = false) (l : List Bytes) :
    ∃ o', o.run l o.alg.hlen = (.ok (o.alg.h (o.fed ++ l.flatten)), o') ∧ o'.alg = o.alg := by
  induction l generalizing o with
  | nil =>
    refine ⟨{ o with fin := true }, ?_, rfl⟩
    simp [DigestOp.run, DigestOp.final, hf]
  | cons d l ih =>
    obtain ⟨o', h1, h2⟩ := ih { o with inUse := true, fed := o.fed ++ d } hf
    refine ⟨o', ?_, h2⟩
    have : o.run (d :: l) o.alg.hlen = DigestOp.run { o with inUse := true, fed := o.fed ++ d } l o.alg.hlen := by
      simp [DigestOp.run, DigestOp.update, hf]
    rw [this]
    simpa [List.append_assoc] using h1

theorem sshLoop_spec {a : HashAlg} (ha : HashOk a) (h0 : 0 < a.hlen) (k : SshKdf) (v : Bytes) (n : Nat) :
    ∀ (todo ctr : Nat) (op : DigestOp), op.alg = a → (ctr = 0 → op = DigestOp.new a) → ctr + todo = (n + a.hlen - 1) / a.hlen →
      ctr * a.hlen ≤ n →
      sshLoop k v n a.hlen todo ctr op (sshStream a v k.hash k.keyType k.sid ctr) =
        .ok ((sshStream a v k.hash k.keyType k.sid ((n + a.hlen - 1) / a.hlen)).take n) := by
  intro todo
  induction todo with
  | zero =>
    intro ctr op _ _ hc hn
    rw [sshLoop, ← hc, Nat.add_zero, List.take_of_length_le (by rw [sshStream_length ha]; exact hn)]
  | succ todo ih =>
    intro ctr op hop hnew hc hn
    have hlt : ctr * a.hlen < n := by
      have : ctr < (n + a.hlen - 1) / a.hlen := by omega
      rw [Nat.lt_iff_add_one_le, Nat.le_div_iff_mul_le h0, Nat.succ_mul] at this
      omega
    have hlen := sshStream_length ha v k.hash k.keyType k.sid ctr
    -- the operation that is run, and what it hashes
    obtain ⟨op', hr, hop'⟩ : ∃ op', (if ctr ≠ 0 then op.reset else op).run
          (if ctr = 0 then [v, k.hash, [k.keyType], k.sid] else [v, k.hash, sshStream a v k.hash k.keyType k.sid ctr]) a.hlen =
        (.ok (a.h (if ctr = 0 then v ++ k.hash ++ [k.keyType] ++ k.sid else v ++ k.hash ++ sshStream a v k.hash k.keyType k.sid ctr)), op') ∧
        op'.alg = a := by
      by_cases e : ctr = 0
      · rw [if_neg (by simp [e]), if_pos e, if_pos e, hnew e]
        obtain ⟨o', h1, h2⟩ := hashOp_run (DigestOp.new a) rfl [v, k.hash, [k.keyType], k.sid]
        refine ⟨o', ?_, h2⟩
        simpa [DigestOp.new] using h1
      · rw [if_pos e, if_neg e, if_neg e]
        obtain ⟨o', h1, h2⟩ := hashOp_run op.reset rfl [v, k.hash, sshStream a v k.hash k.keyType k.sid ctr]
        refine ⟨o', ?_, by rw [h2]; exact hop⟩
        simpa [DigestOp.reset, hop] using h1
    have hs : sshStream a v k.hash k.keyType k.sid (ctr + 1) = sshStream a v k.hash k.keyType k.sid ctr ++
        a.h (if ctr = 0 then v ++ k.hash ++ [k.keyType] ++ k.sid else v ++ k.hash ++ sshStream a v k.hash k.keyType k.sid ctr) := by
      cases ctr with
      | zero => simp [sshStream]
      | succ m => rw [show m + 1 + 1 = m + 2 from rfl, sshStream, if_neg (by omega)]
    rw [sshLoop]
    rw [hr]
    simp only
    rw [hlen]
    generalize hb : a.h (if ctr = 0 then v ++ k.hash ++ [k.keyType] ++ k.sid else v ++ k.hash ++ sshStream a v k.hash k.keyType k.sid ctr) = b at hs
    have bl : b.length = a.hlen := by rw [← hb]; exact ha.size _
    by_cases c : ctr * a.hlen + a.hlen > n
    · rw [if_pos c]
      have last : (n + a.hlen - 1) / a.hlen = ctr + 1 := by
        apply Nat.le_antisymm
        · have : (n + a.hlen - 1) / a.hlen < ctr + 2 := by
            rw [Nat.div_lt_iff_lt_mul h0, Nat.succ_mul, Nat.succ_mul]; omega
          omega
        · omega
      have : todo = 0 := by omega
      subst this
      have ht : (sshStream a v k.hash k.keyType k.sid ctr).take n = sshStream a v k.hash k.keyType k.sid ctr :=
        List.take_of_length_le (by omega)
      rw [sshLoop, last, hs, List.take_append, ht, hlen]
    · rw [if_neg c, List.take_of_length_le (by omega), ← hs]
      exact ih (ctr + 1) op' hop' (by omega) (by omega) (by rw [Nat.succ_mul]; omega)

theorem putVal_value (o : Obj) (v : Bytes) : value (o.put (Attr.ofBytes CKA_VALUE v)) CKA_VALUE = some v := by
  rw [value_eq, find_put]
  rfl

theorem putVal_other (o : Obj) (v : Bytes) {u : Nat} (hu : CKA_VALUE ≠ u) : value (o.put (Attr.ofBytes CKA_VALUE v)) u = value o u := by
  rw [value_eq, value_eq, find_put]
  exact congrArg _ (if_neg hu)

/-- What a successful derivation did. -/
theorem sshDerive_shape {k : SshKdf} {a : HashAlg} (ha : HashOk a) {O : Oracle} {uid : Bytes} {key : Obj} {t : Template} {out : List Obj}
    {secret : Bytes} (h : sshDerive k a O uid key t = .ok out) (hv : value key CKA_VALUE = some secret) :
    ∃ o n v, (if k.isData then commonDeriveData 0 O uid t else commonDeriveKey 0 uid key t) = .ok (o, n) ∧ v.length = n ∧ 0 < n ∧
      out = [o.put (Attr.ofBytes CKA_VALUE v)] ∧ IsSsh a secret k.hash k.keyType k.sid v := by
  unfold sshDerive at h
  split at h; · cases h
  split at h; · cases h
  rename_i o n hon
  split at h; · cases h
  rename_i hn
  split at h; · cases h
  rename_i w hw
  have := value_getBytes hw hv
  subst this
  split at h; · cases h
  rename_i hz
  split at h; · cases h
  rename_i dkm hd
  have hz : 0 < a.hlen := by omega
  have hs := sshLoop_spec ha hz k w n ((n + a.hlen - 1) / a.hlen) 0 (DigestOp.new a) rfl (fun _ => rfl) (by omega) (by omega)
  rw [show sshStream a w k.hash k.keyType k.sid 0 = [] from rfl, hd] at hs
  injection hs with hs
  injection h with h
  have hge : n ≤ (n + a.hlen - 1) / a.hlen * a.hlen := by
    have := Nat.div_add_mod (n + a.hlen - 1) a.hlen
    have := Nat.mod_lt (n + a.hlen - 1) hz
    rw [Nat.mul_comm]
    omega
  obtain ⟨l, p⟩ := take_ssh ha w k.hash k.keyType k.sid ((n + a.hlen - 1) / a.hlen) n hge
  rw [← hs] at l p
  exact ⟨o, n, dkm, hon, l, by omega, h.symm, p⟩

/-! ## The two kinds of objects -/

theorem mem_set_dropLast {α : Type _} {l : List α} {i : Nat} {z : α} (hi : i < l.length) (hz : l.getLast? = some z) {c : α} (hc : c ∈ l) :
    l[i]? = some c ∨ c ∈ (l.set i z).dropLast := by
  obtain ⟨j, hj⟩ := List.mem_iff_getElem?.mp hc
  have hjl : j < l.length := by
    rw [List.getElem?_eq_some_iff] at hj
    exact hj.1
  rw [List.getLast?_eq_getElem?] at hz
  by_cases e : i = j
  · left; rw [e]; exact hj
  · right
    rw [List.mem_iff_getElem?]
    by_cases e2 : j = l.length - 1
    · refine ⟨i, ?_⟩
      rw [List.getElem?_dropLast, List.length_set, if_pos (by omega), List.getElem?_set_self hi, ← hz, ← e2, hj]
    · refine ⟨j, ?_⟩
      rw [List.getElem?_dropLast, List.length_set, if_pos (by omega), List.getElem?_set_ne e, hj]

theorem swapRemove_mem {t : Template} {typ : Nat} {c0 c : CkAttr} (h0 : Template.findA t typ = some c0) (hc : c ∈ t) :
    c = c0 ∨ c ∈ t.swapRemove typ := by
  unfold Template.findA at h0
  unfold Template.swapRemove
  cases hi : t.findIdx? fun c => c.typ == typ with
  | none => exact .inr hc
  | some i =>
    cases hz : t.getLast? with
    | none => exact .inr hc
    | some z =>
      simp only
      obtain ⟨hlt, h1, h2⟩ := List.findIdx?_eq_some_iff_getElem.mp hi
      rcases mem_set_dropLast hlt hz hc with h | h
      · left
        obtain ⟨g1, j, hj, g2, g3⟩ := List.find?_eq_some_iff_getElem.mp h0
        have : i = j := by
          rcases Nat.lt_trichotomy i j with q | q | q
          · have := g3 i q; simp [h1] at this
          · exact q
          · exact absurd (by rw [g2]; exact g1) (h2 j q)
        subst this
        rw [List.getElem?_eq_getElem hlt, g2] at h
        injection h with h
        exact h.symm
      · exact .inr h

theorem dataFactory : getFactory CKO_DATA 0 = .ok ⟨.data, CKO_DATA, dataAttrs⟩ := by rfl

theorem data_mem : (((CKO_DATA, 0), ⟨.data, CKO_DATA, dataAttrs⟩) : (Nat × Nat) × Factory) ∈ registry := by decide +kernel

theorem commonData_ok {O : Oracle} {uid : Bytes} {t : Template} {o : Obj} {dl n : Nat} (h : commonDeriveData dl O uid t = .ok (o, n)) :
    (∀ c ∈ t, c.typ = CKA_VALUE_LEN → c.toUlong = .ok n) ∧ HasUlong o CKA_CLASS CKO_DATA := by
  unfold commonDeriveData at h
  simp only at h
  split at h; · cases h
  rename_i m hm
  rw [dataFactory] at h
  simp only at h
  split at h; · cases h
  rename_i o1 h1
  injection h with h
  injection h with e1 e2
  subst e1; subst e2
  have h1' : defaultObjectCreate ⟨.data, CKO_DATA, dataAttrs⟩ uid
      ((Template.addMissingUlong t CKA_CLASS CKO_DATA).swapRemove CKA_VALUE_LEN) = .ok o1 := h1
  unfold defaultObjectCreate at h1'
  split at h1'; · cases h1'
  rename_i o0 h0
  injection h1' with h1'
  have acc := (C15_accepts_iff _ _ data_mem _ _ _).mp ⟨o0, h0⟩
  constructor
  · intro c hc ht
    split at hm
    · rename_i hc0
      have := List.find?_eq_none.mp hc0 c (mem_addMissingUlong hc)
      simp [ht] at this
    rename_i c0 hc0
    rcases swapRemove_mem hc0 (mem_addMissingUlong hc) with e | e
    · rw [e]; exact hm
    · obtain ⟨f, hf, e2⟩ := acc.known c e
      have : ∀ f ∈ dataAttrs, f.typ ≠ CKA_VALUE_LEN := by decide +kernel
      exact absurd (e2.trans ht) (this f hf)
  · have nv := C15_values _ _ data_mem _ _ _ o0 h0 CKA_CLASS
    unfold HasUlong
    rw [← h1', value_eq, find_generateUnique, if_neg (by decide), ← value_eq]
    generalize value o0 CKA_CLASS = w at nv
    cases nv with
    | cls => rfl
    | given _ _ h => exact absurd rfl h
    | default _ h => exact absurd (.inl rfl) h
    | absent h => exact absurd (.inl rfl) h

/-- Only secret and OTP keys have a CKA_VALUE_LEN. -/
theorem valueLen_secret : allFactories (fun F => !(F.attrs.any fun f => f.typ == CKA_VALUE_LEN) || F.cls == CKO_SECRET_KEY || F.cls == CKO_OTP_KEY) = true := by
  decide +kernel

theorem commonKey_ok {uid : Bytes} {key : Obj} {t : Template} {o : Obj} {n : Nat} (h : commonDeriveKey 0 uid key t = .ok (o, n)) :
    (∀ c ∈ t, c.typ = CKA_VALUE_LEN → c.toUlong = .ok n) ∧ value o CKA_VALUE_LEN = some (toLE 8 n) ∧
    (HasUlong o CKA_CLASS CKO_SECRET_KEY ∨ HasUlong o CKA_CLASS CKO_OTP_KEY) ∧
    (IsTrue o CKA_ALWAYS_SENSITIVE → IsTrue key CKA_ALWAYS_SENSITIVE ∧ IsTrue o CKA_SENSITIVE) ∧
    (IsTrue o CKA_NEVER_EXTRACTABLE → IsTrue key CKA_NEVER_EXTRACTABLE ∧ IsFalse o CKA_EXTRACTABLE) := by
  unfold commonDeriveKey deriveKeyFromTemplate at h
  split at h; · cases h
  rename_i o1 h1
  rw [if_pos rfl] at h
  split at h; · cases h
  rename_i m hm
  injection h with h
  injection h with e1 e2
  subst e1; subst e2
  split at h1; · cases h1
  rename_i F hF
  split at h1
  · obtain ⟨kk, hkk⟩ := keyTemplateFactory_mem hF
    obtain ⟨o0, h0, hf⟩ := keyDerive_same h1
    have acc := (C15_accepts_iff F kk hkk _ _ _).mp ⟨o0, h0⟩
    have hlen : value o1 CKA_VALUE_LEN = some (toLE 8 m) := by
      unfold Obj.getUlong at hm
      split at hm; · cases hm
      rename_i a ha
      rw [value_eq, ha]
      unfold Attr.toUlong at hm
      split at hm; · cases hm
      split at hm; · cases hm
      rename_i h8
      injection hm with hm
      subst hm
      exact congrArg some (ulongBytes_fromLE _ (by simpa using h8)).symm
    have hcls : F.cls = CKO_SECRET_KEY ∨ F.cls = CKO_OTP_KEY := by
      have hin : ∃ f ∈ F.attrs, f.typ = CKA_VALUE_LEN := by
        have nv := C15_values F kk hkk _ _ _ o0 h0 CKA_VALUE_LEN
        have ev : value o0 CKA_VALUE_LEN = some (toLE 8 m) := by rw [← hlen, value_eq, value_eq, hf _ (by decide)]
        generalize value o0 CKA_VALUE_LEN = w at nv ev
        cases nv with
        | cls e => exact absurd e (by decide)
        | given c _ _ _ hc ht => obtain ⟨f, h1, h2⟩ := acc.known c hc; exact ⟨f, h1, h2.trans ht⟩
        | default f _ h1 h2 => exact ⟨f, h1, h2⟩
        | absent => cases ev
      obtain ⟨f, f1, f2⟩ := hin
      have := allFactories_spec valueLen_secret hkk
      simp only [Bool.or_eq_true, Bool.not_eq_true', List.any_eq_false, beq_iff_eq] at this
      rcases this with (q | q) | q
      · exact absurd f2 (q f f1)
      · exact .inl q
      · exact .inr q
    have hcv : HasUlong o1 CKA_CLASS F.cls := by
      have nv := C15_values F kk hkk _ _ _ o0 h0 CKA_CLASS
      unfold HasUlong
      rw [value_eq, hf _ (by decide), ← value_eq]
      generalize value o0 CKA_CLASS = w at nv
      cases nv with
      | cls => rfl
      | given _ _ h => exact absurd rfl h
      | default _ h => exact absurd (.inl rfl) h
      | absent h => exact absurd (.inl rfl) h
    have hsec : Obj.secretClass F.cls = true := by rcases hcls with e | e <;> rw [e] <;> decide
    refine ⟨?_, hlen, ?_, derive_life hkk hsec h1⟩
    · intro c hc ht
      obtain ⟨a, a1, a2⟩ := derive_given hkk h1 (by decide) (by decide) notIgnored_valueLen (mem_addMissingUlong hc) ht
      exact told_len hm a1 ht a2
    · rcases hcls with e | e
      · rw [e] at hcv; exact .inl hcv
      · rw [e] at hcv; exact .inr hcv
  · cases h1

/-! ## The property -/

/-- What `new` keeps of the parameter. -/
theorem sshNew_ok {mech hash : Nat} {X : UInt8} {H sid : Bytes} {k : SshKdf} (h : SshKdf.new mech hash X H sid = .ok k) :
    k.prf = hash ∧ k.keyType = X ∧ k.hash = H ∧ k.sid = sid ∧ k.fin = false ∧ (AMap.get hashDerivations hash).isNone = false ∧
      ((k.isData = true ∧ (X = 0x41 ∨ X = 0x42)) ∨ (k.isData = false ∧ (X = 0x43 ∨ X = 0x44 ∨ X = 0x45 ∨ X = 0x46))) := by
  unfold SshKdf.new at h
  split at h; · cases h
  rename_i hp
  have hp : (AMap.get hashDerivations hash).isNone = false := Bool.eq_false_iff.mpr hp
  split at h
  · rename_i hx
    injection h with h; subst h
    exact ⟨rfl, rfl, rfl, rfl, rfl, hp, .inl ⟨rfl, hx⟩⟩
  · split at h
    · rename_i hx
      injection h with h; subst h
      exact ⟨rfl, rfl, rfl, rfl, rfl, hp, .inr ⟨rfl, hx⟩⟩
    · cases h

theorem sshDerive_fresh {k : SshKdf} {algs : Nat → HashAlg} {O : Oracle} {uid : Bytes} {key : Obj} {t : Template} (hf : k.fin = false) :
    (k.derive algs O uid key t).1 = sshDerive k (algs k.prf) O uid key t := by
  unfold SshKdf.derive
  rw [if_neg (by simp [hf])]

/-- **C62**: the value. -/
theorem C62_value (algs : Nat → HashAlg) (mech hash : Nat) (X : UInt8) (H sid : Bytes) (O : Oracle) (uid : Bytes) (key : Obj) (t : Template)
    (k : SshKdf) (out : List Obj) (secret : Bytes) (ha : HashOk (algs hash)) (hk : SshKdf.new mech hash X H sid = .ok k)
    (h : (k.derive algs O uid key t).1 = .ok out) (hv : value key CKA_VALUE = some secret) :
    ∃ o v, out = [o] ∧ value o CKA_VALUE = some v ∧ 0 < v.length ∧ (∀ c ∈ t, c.typ = CKA_VALUE_LEN → c.toUlong = .ok v.length) ∧
      IsSsh (algs hash) secret H X sid v := by
  obtain ⟨k1, k2, k3, k4, k5, _, _⟩ := sshNew_ok hk
  rw [sshDerive_fresh k5, k1] at h
  obtain ⟨o, n, v, h1, h2, h3, h4, h5⟩ := sshDerive_shape ha h hv
  refine ⟨_, v, h4, putVal_value o v, by omega, ?_, by rw [k2, k3, k4] at h5; exact h5⟩
  rw [h2]
  split at h1
  · exact (commonData_ok h1).1
  · exact (commonKey_ok h1).1

/-- **C62**: IVs are data objects, keys are secret keys; a key says how long it is and does not claim a better history than the base key. -/
theorem C62_kind (algs : Nat → HashAlg) (mech hash : Nat) (X : UInt8) (H sid : Bytes) (O : Oracle) (uid : Bytes) (key : Obj) (t : Template)
    (k : SshKdf) (out : List Obj) (secret : Bytes) (ha : HashOk (algs hash)) (hk : SshKdf.new mech hash X H sid = .ok k)
    (h : (k.derive algs O uid key t).1 = .ok out) (hv : value key CKA_VALUE = some secret) :
    (X = 0x41 ∨ X = 0x42 ∨ X = 0x43 ∨ X = 0x44 ∨ X = 0x45 ∨ X = 0x46) ∧
    ∀ o ∈ out, (X = 0x41 ∨ X = 0x42 → HasUlong o CKA_CLASS CKO_DATA) ∧
      (X = 0x43 ∨ X = 0x44 ∨ X = 0x45 ∨ X = 0x46 → (HasUlong o CKA_CLASS CKO_SECRET_KEY ∨ HasUlong o CKA_CLASS CKO_OTP_KEY) ∧
        (∃ v, value o CKA_VALUE = some v ∧ value o CKA_VALUE_LEN = some (toLE 8 v.length)) ∧
        (IsTrue o CKA_ALWAYS_SENSITIVE → IsTrue key CKA_ALWAYS_SENSITIVE ∧ IsTrue o CKA_SENSITIVE) ∧
        (IsTrue o CKA_NEVER_EXTRACTABLE → IsTrue key CKA_NEVER_EXTRACTABLE ∧ IsFalse o CKA_EXTRACTABLE)) := by
  obtain ⟨k1, k2, k3, k4, k5, _, k6⟩ := sshNew_ok hk
  rw [sshDerive_fresh k5, k1] at h
  obtain ⟨o, n, v, h1, h2, h3, h4, h5⟩ := sshDerive_shape ha h hv
  refine ⟨by rcases k6 with ⟨_, e | e⟩ | ⟨_, e | e | e | e⟩ <;> simp [e], ?_⟩
  intro o' ho'
  rw [h4] at ho'
  have := List.mem_singleton.mp ho'
  subst this
  rcases k6 with ⟨d, hx⟩ | ⟨d, hx⟩
  · rw [d, if_pos rfl] at h1
    refine ⟨fun _ => by unfold HasUlong; rw [putVal_other o v (by decide)]; exact (commonData_ok h1).2, fun hx' => ?_⟩
    rcases hx with e | e <;> rw [e] at hx' <;> exact absurd hx' (by decide)
  · rw [d, if_neg (by decide)] at h1
    refine ⟨fun hx' => ?_, fun _ => ?_⟩
    · rcases hx with e | e | e | e <;> rw [e] at hx' <;> exact absurd hx' (by decide)
    · obtain ⟨_, c2, c3, c4, c5⟩ := commonKey_ok h1
      unfold HasUlong IsTrue IsFalse at *
      rw [putVal_other o v (u := CKA_CLASS) (by decide), putVal_other o v (u := CKA_VALUE_LEN) (by decide),
        putVal_other o v (u := CKA_ALWAYS_SENSITIVE) (by decide), putVal_other o v (u := CKA_NEVER_EXTRACTABLE) (by decide),
        putVal_other o v (u := CKA_SENSITIVE) (by decide), putVal_other o v (u := CKA_EXTRACTABLE) (by decide)]
      exact ⟨c3, ⟨v, putVal_value o v, by rw [h2]; exact c2⟩, c4, c5⟩

/-- **C62**: once. -/
theorem C62_once (k : SshKdf) (algs : Nat → HashAlg) (O : Oracle) (uid uid' : Bytes) (key key' : Obj) (t t' : Template) :
    (((k.derive algs O uid key t).2).derive algs O uid' key' t').1 = .error .operationNotInitialized := by
  unfold SshKdf.derive
  by_cases h : k.fin = true
  · simp [h]
  · simp [h]

/-! ## Examples and violations -/

def exSsh (X : UInt8) (H sid : Bytes) (t : Template) : Res (List Obj) :=
  match SshKdf.new KRM_SSHKDF_DERIVE CKM_SHA256 X H sid with
  | .error r => .error r
  | .ok k => (k.derive (fun _ => exHash) exOracle exUid2 exTlsKey t).1

/-- Three segments and the rest of one, as an IV and as a key. -/
example : ((exSsh 0x41 [1, 2, 3] [4, 5] [.ofUlong CKA_VALUE_LEN 7]).map fun l => l.map fun o => (o.cls, (value o CKA_VALUE).map List.length)) =
      .ok [(CKO_DATA, some 7)] ∧
    ((exSsh 0x43 [1, 2, 3] [4, 5] [.ofUlong CKA_VALUE_LEN 7, .ofUlong CKA_KEY_TYPE CKK_GENERIC_SECRET]).map fun l =>
      l.map fun o => (o.cls, (value o CKA_VALUE).map List.length)) = .ok [(CKO_SECRET_KEY, some 7)] ∧
    exSsh 0x47 [1] [2] [.ofUlong CKA_VALUE_LEN 7] = .error .mechanismParamInvalid := by decide +kernel

theorem ssh_first {a : HashAlg} (ha : HashOk a) {K H H' sid sid' : Bytes} {X Y : UInt8} {v w : Bytes} (hv : IsSsh a K H X sid v)
    (hw : IsSsh a K H' Y sid' w) (hl : v.length = w.length) (hs : v.length ≤ a.hlen) (e : H ++ [X] ++ sid = H' ++ [Y] ++ sid') : v = w := by
  have h1 := hv 1 (by omega)
  have h2 := hw 1 (by omega)
  have e1 : sshStream a K H X sid 1 = sshStream a K H' Y sid' 1 := by
    simp only [sshStream]
    rw [List.append_assoc, List.append_assoc, ← List.append_assoc H, e]
    simp [List.append_assoc]
  rw [e1] at h1
  rw [List.prefix_iff_eq_take] at h1 h2
  rw [h1, h2, hl]

theorem ck_ulong {t n : Nat} (h : n < 2 ^ 64) : (CkAttr.ofUlong t n).toUlong = .ok n := by
  have e : CkAttr.ofUlong t n = ⟨t, .data (toLE 8 n)⟩ := rfl
  rw [e]
  unfold CkAttr.toUlong
  rw [if_neg (by simp [PVal.len, ulongSize])]
  simp only
  rw [fromLE_toLE 8 n (by rw [show (256 : Nat) ^ 8 = 2 ^ 64 by decide]; exact h)]

/-- A data object can always be derived. -/
theorem ssh_data {algs : Nat → HashAlg} {mech hash : Nat} {X Y : UInt8} {H sid H' sid' : Bytes} {O : Oracle} {uid uid' : Bytes} {key : Obj}
    {t : Template} {k k' : SshKdf} {out : List Obj} {secret : Bytes} (ha : HashOk (algs hash)) (hk : SshKdf.new mech hash X H sid = .ok k)
    (hk' : SshKdf.new mech hash Y H' sid' = .ok k') (hy : k'.isData = true)
    (h : (k.derive algs O uid key t).1 = .ok out) (hv : value key CKA_VALUE = some secret) (n : Nat) (hn : 0 < n) (hn' : n < 2 ^ 32) :
    ∃ out', (k'.derive algs O uid' key [.ofUlong CKA_VALUE_LEN n]).1 = .ok out' := by
  obtain ⟨k1, _, _, _, k5, _, _⟩ := sshNew_ok hk
  obtain ⟨j1, _, _, _, j5, _, _⟩ := sshNew_ok hk'
  rw [sshDerive_fresh k5, k1] at h
  rw [sshDerive_fresh j5, j1]
  unfold sshDerive at h ⊢
  split at h; · cases h
  split at h; · cases h
  split at h; · cases h
  split at h; · cases h
  rename_i w hw
  split at h; · cases h
  rename_i hz
  have hd : ∃ o, commonDeriveData 0 O uid' [.ofUlong CKA_VALUE_LEN n] = .ok (o, n) := by
    have e1 : Template.addMissingUlong [CkAttr.ofUlong CKA_VALUE_LEN n] CKA_CLASS CKO_DATA =
        [CkAttr.ofUlong CKA_VALUE_LEN n, CkAttr.ofUlong CKA_CLASS CKO_DATA] := rfl
    have e2 : Template.findA [CkAttr.ofUlong CKA_VALUE_LEN n, CkAttr.ofUlong CKA_CLASS CKO_DATA] CKA_VALUE_LEN = some (CkAttr.ofUlong CKA_VALUE_LEN n) := rfl
    have e3 : Template.swapRemove [CkAttr.ofUlong CKA_VALUE_LEN n, CkAttr.ofUlong CKA_CLASS CKO_DATA] CKA_VALUE_LEN =
        [CkAttr.ofUlong CKA_CLASS CKO_DATA] := rfl
    have e4 : (CkAttr.ofUlong CKA_VALUE_LEN n).toUlong = .ok n := ck_ulong (by omega)
    have e5 : ∃ o, internalObjectCreate ⟨.data, CKO_DATA, dataAttrs⟩ [CkAttr.ofUlong CKA_CLASS CKO_DATA] oaNeverSettable oaRequiredOnCreate = .ok o :=
      ⟨okObj (internalObjectCreate ⟨.data, CKO_DATA, dataAttrs⟩ [CkAttr.ofUlong CKA_CLASS CKO_DATA] oaNeverSettable oaRequiredOnCreate),
        by decide +kernel⟩
    obtain ⟨o, e5⟩ := e5
    refine ⟨o.generateUnique uid', ?_⟩
    unfold commonDeriveData
    simp only [e1, e2, e3, e4, dataFactory]
    simp only [Factory.create, defaultObjectCreate, e5]
  obtain ⟨o, hd⟩ := hd
  rw [hy, if_pos rfl, hd]
  simp only
  rw [if_neg (by omega), if_neg hz]
  have hs := sshLoop_spec ha (by omega) k' w n ((n + (algs hash).hlen - 1) / (algs hash).hlen) 0 (DigestOp.new (algs hash)) rfl (fun _ => rfl)
    (by omega) (by omega)
  rw [show sshStream (algs hash) w k'.hash k'.keyType k'.sid 0 = [] from rfl] at hs
  rw [hs]
  exact ⟨_, rfl⟩

/-- The claim "the bytes of a key C to F are never in a data object" fails for all inputs like these: when the same bytes H ++ X ++ sid can be
written as H' ++ Y ++ sid' with an IV letter Y (the letter A or B occurs in H or in sid), the same base key gives the key, if it is not
longer than the hash, as a data object. -/
theorem C62_launder (algs : Nat → HashAlg) (mech hash : Nat) (X Y : UInt8) (H sid H' sid' : Bytes) (O : Oracle) (uid uid' : Bytes) (key : Obj)
    (t : Template) (k : SshKdf) (o : Obj) (secret v : Bytes) (ha : HashOk (algs hash)) (hk : SshKdf.new mech hash X H sid = .ok k)
    (h : (k.derive algs O uid key t).1 = .ok [o]) (hv : value key CKA_VALUE = some secret) (ho : value o CKA_VALUE = some v)
    (hl : v.length ≤ (algs hash).hlen) (hl' : v.length < 2 ^ 32) (hY : Y = 0x41 ∨ Y = 0x42) (e : H ++ [X] ++ sid = H' ++ [Y] ++ sid') :
    ∃ k' o', SshKdf.new mech hash Y H' sid' = .ok k' ∧ (k'.derive algs O uid' key [.ofUlong CKA_VALUE_LEN v.length]).1 = .ok [o'] ∧
      HasUlong o' CKA_CLASS CKO_DATA ∧ value o' CKA_VALUE = some v := by
  obtain ⟨_, _, _, _, _, hp, _⟩ := sshNew_ok hk
  have hk' : SshKdf.new mech hash Y H' sid' = .ok ⟨mech, false, hash, Y, H', sid', true⟩ := by
    unfold SshKdf.new
    rw [if_neg (by rw [hp]; decide), if_pos hY]
  obtain ⟨o1, v1, a1, a2, a3, a4, a5⟩ := C62_value algs mech hash X H sid O uid key t k [o] secret ha hk h hv
  injection a1 with a1
  subst a1
  rw [ho] at a2
  injection a2 with a2
  subst a2
  obtain ⟨out', hd⟩ := ssh_data ha hk hk' rfl h hv v.length a3 hl' (uid' := uid')
  obtain ⟨o2, v2, b1, b2, b3, b4, b5⟩ := C62_value algs mech hash Y H' sid' O uid' key _ _ out' secret ha hk' hd hv
  obtain ⟨_, c⟩ := C62_kind algs mech hash Y H' sid' O uid' key _ _ out' secret ha hk' hd hv
  subst b1
  have hlen : v2.length = v.length := by
    have := b4 _ (List.mem_singleton.mpr rfl) rfl
    rw [ck_ulong (by omega)] at this
    injection this with this
    exact this.symm
  have := ssh_first ha a5 b5 hlen.symm hl e
  subst this
  exact ⟨_, o2, hk', hd, (c o2 (List.mem_singleton.mpr rfl)).1 hY, b2⟩

def exSshObj (r : Res (List Obj)) : Obj := okObj (r.map fun l => l.headD exTlsKey)
def exSshHidden : Res (List Obj) :=
  exSsh 0x43 [1, 2, 3] [4, 5, 0x41, 6] [.ofUlong CKA_VALUE_LEN 2, .ofUlong CKA_KEY_TYPE CKK_GENERIC_SECRET, .ofBool CKA_SENSITIVE true,
    .ofBool CKA_EXTRACTABLE false]
def exSshShown : Res (List Obj) := exSsh 0x41 [1, 2, 3, 0x43, 4, 5] [6] [.ofUlong CKA_VALUE_LEN 2]

/-- Such a case, with a key that cannot be read: the session id holds the letter A. -/
theorem C62_launder_violation : ∃ (o o' : Obj) (v : Bytes),
    exSsh 0x43 [1, 2, 3] [4, 5, 0x41, 6] [.ofUlong CKA_VALUE_LEN 2, .ofUlong CKA_KEY_TYPE CKK_GENERIC_SECRET, .ofBool CKA_SENSITIVE true,
      .ofBool CKA_EXTRACTABLE false] = .ok [o] ∧
    IsTrue o CKA_SENSITIVE ∧ IsFalse o CKA_EXTRACTABLE ∧ value o CKA_VALUE = some v ∧
    (getObjectAttributes o [⟨CKA_VALUE, false, 2, [0, 0]⟩]).1 = .error .attrSensitive ∧
    exSsh 0x41 [1, 2, 3, 0x43, 4, 5] [6] [.ofUlong CKA_VALUE_LEN 2] = .ok [o'] ∧
    getObjectAttributes o' [⟨CKA_VALUE, false, 2, [0, 0]⟩] = (.ok (), [⟨CKA_VALUE, false, 2, v⟩]) := by
  refine ⟨exSshObj exSshHidden, exSshObj exSshShown, ((value (exSshObj exSshHidden) CKA_VALUE).getD []), by decide +kernel,
    ⟨1, by decide +kernel⟩, ?_⟩
  unfold IsFalse
  decide +kernel

/-- A derived HMAC key can have any size: the size of its type is not checked. -/
theorem C62_size_violation : ∃ o, exSsh 0x45 [1, 2, 3] [4] [.ofUlong CKA_VALUE_LEN 5, .ofUlong CKA_KEY_TYPE CKK_SHA256_HMAC] = .ok [o] ∧
    HasUlong o CKA_KEY_TYPE CKK_SHA256_HMAC ∧ ((value o CKA_VALUE).map List.length) = some 5 := by
  refine ⟨exSshObj (exSsh 0x45 [1, 2, 3] [4] [.ofUlong CKA_VALUE_LEN 5, .ofUlong CKA_KEY_TYPE CKK_SHA256_HMAC]), ?_⟩
  unfold HasUlong
  decide +kernel

end Kry
