import Verif.Props.C27
import Verif.Props.C13
import Verif.Proofs.Sealing

/-!
# C29: ciphertexts are bound to their object and key generation

The attacker may write any table of objects into the database of any slot at any time (`Tampered.write`).  `C29_use` and `C29_read`: if a secret
attribute of a stored object is a ciphertext that was made for another object, or under another master key than the one the token holds, each
call that names the object, and each reading of the attribute, fails.  Key version, nonce and derivation data around the ciphertext may be chosen
freely.  `C29_value`: what is accepted is what was sealed for this object.  `C29_reinit`: after C_InitToken the token holds the newly drawn
key only, so ciphertexts kept across it are of the kind above.

Missing: the value of a DH private key is not encrypted, so a ciphertext put there is taken for the key (`C29_dh_violation`).  Within one object a
ciphertext may be moved to another attribute, since the type is not sealed with it; the statement does not forbid it, and `C29_value` covers it.
-/

namespace Kry
namespace Spec

/-- The stored text `b` contains the ciphertext that sealing `p` for the object `u` under master key `k` has given (whatever else the text says). -/
def carries (C : Crypto) (k u p b : Bytes) : Prop := ∃ iv d, C.parse b = some d ∧ (d.data, d.tag) = C.enc (C.dek k u) iv u p

/-- In slot `i` the key object with unique id `u` has in its secret attribute `t` the ciphertext of `p`, sealed for `u'` under `k`. -/
structure Planted (C : Crypto) (s : St) (i : Nat) (u : Bytes) (t : Nat) (k u' p : Bytes) : Prop where
  held : ∃ sl id rows cls kt b, AMap.get s.slots i = some sl ∧ (id, rows) ∈ sl.token.store.db.objs ∧ (AMap.keys rows).Nodup ∧
    (CKA_UNIQUE_ID, .text u) ∈ rows ∧ (CKA_CLASS, .int (Int.ofNat cls)) ∈ rows ∧ (CKA_KEY_TYPE, .int (Int.ofNat kt)) ∈ rows ∧
    cls < 2 ^ 32 ∧ kt < 2 ^ 32 ∧ t ∈ secretAttrs cls kt ∧ (cls, kt) ≠ (CKO_PRIVATE_KEY, CKK_DH) ∧
    (t, .blob b) ∈ rows ∧ carries C k u' p b

/-- The token in slot `i` holds the master key `k`. -/
def holdsKey (s : St) (i : Nat) (k : Bytes) : Prop := ∃ sl, AMap.get s.slots i = some sl ∧ sl.token.store.aci.key = some k

/-- The call works with the object `n`. -/
def actsOnObj (M : Mechs) (n : Nat) : Call → Prop
  | .op _ c => match c with
    | .opInit k (some _) key _ => k ≠ .digest ∧ key = n
    | .digestKey key => key = n
    | .wrap _ _ w k _ => w = n ∨ k = n
    | .unwrap _ _ key _ _ => key = n
    | .derive m p key _ => key = n ∨ ∃ hs, M.deriveHandles m p = .ok hs ∧ n ∈ hs
    | .encapsulate _ key _ _ => key = n
    | .decapsulate _ key _ _ => key = n
    | _ => False
  | .sess _ c => match c with
    | .copyObject o _ => o = n
    | .getObjectSize o => o = n
    | .setAttr o _ => o = n
    | .destroyObject o => o = n
    | _ => False
  | _ => False

/-- The session a call names. -/
def Call.session? : Call → Option Nat
  | .op h _ => some h
  | .sess h _ => some h
  | _ => none

/-- What happens to a module whose database an attacker can write. -/
inductive Tampered where
  | call (e : Env) (c : Call)
  | write (i : Nat) (t : ObjTable)

/-- The attacker replaces the objects of slot `i`, loaded or not. -/
def overwrite (s : St) (i : Nat) (t : ObjTable) : St :=
  ⟨AMap.modify s.slots i fun sl => { sl with token := { sl.token with store := { sl.token.store with db := { sl.token.store.db with objs := t } } } },
   s.smap, s.next, AMap.modify s.disks i fun d => { d with objs := t }⟩

def tampered (M : Mechs) (C : Crypto) (O : Oracle) : St → List Tampered → St
  | s, [] => s
  | s, .call e c :: rest => tampered M C O (step M C O e s c).2 rest
  | s, .write i t :: rest => tampered M C O (overwrite s i t) rest

end Spec

open Spec

variable {M : Mechs} {C : Crypto} {O : Oracle}

/-! ## One value -/

/-- What is accepted was sealed for this object under this key. -/
theorem decryptValue_carries {e : Env} {a : Aci} {u b x : Bytes} (h : a.decryptValue C e u b = .ok x) {k u' p : Bytes}
    (hc : carries C k u' p b) : a.key = some k ∧ u' = u ∧ p = x := by
  unfold Aci.decryptValue at h
  split at h
  · rename_i K hK
    unfold decryptData at h
    obtain ⟨iv, d, hd, he⟩ := hc
    rw [hd] at h
    simp only at h
    split at h
    · cases h
    · split at h
      · cases h
      · rename_i info _
        split at h
        · cases h
        · split at h
          · cases h
          · rename_i q hq
            injection h with h
            subst h
            have h1 := C.enc_of_dec _ _ _ _ _ hq
            rw [he] at h1
            obtain ⟨h2, h3, h4⟩ := C.enc_inj _ _ _ _ _ _ _ _ h1
            obtain ⟨h5, h6⟩ := C.dek_inj _ _ _ _ h2
            exact ⟨by rw [hK, h5], h3.symm, h4.symm⟩
  · cases h

/-- The loop has decrypted each sensitive attribute it found. -/
theorem decryptLoop_each {e : Env} {a : Aci} {u : Bytes} {ts : List Nat} {i : Nat} {o o' : Obj} (hn : ts.Nodup)
    (hd : decryptLoop C e a u ts i o = .ok o') {t : Nat} (ht : t ∈ ts) {x : Attr} (hx : o.find t = some x) :
    ∃ e1 p, a.decryptValue C e1 u x.value = .ok p ∧ o'.find t = some (Attr.ofBytes t p) := by
  induction ts generalizing i o with
  | nil => cases ht
  | cons t1 ts ih =>
    obtain ⟨hnot, hn⟩ := List.nodup_cons.1 hn
    unfold decryptLoop at hd
    by_cases e1 : t = t1
    · subst e1
      rw [hx] at hd
      simp only at hd
      split at hd
      · cases hd
      · rename_i p hp
        split at hd
        · cases hd
        · rename_i o1 ho1
          refine ⟨_, p, hp, ?_⟩
          rw [decryptLoop_find hd hnot]
          rw [find_setAttr ho1]; simp [Attr.ofBytes]
    · have ht : t ∈ ts := by
        rcases List.mem_cons.1 ht with h | h
        · exact absurd h e1
        · exact h
      split at hd
      · exact ih hn hd ht hx
      · split at hd
        · cases hd
        · split at hd
          · cases hd
          · rename_i o1 ho1
            exact ih hn hd ht (by rw [find_setAttr ho1, if_neg (by simpa [Attr.ofBytes] using fun h => e1 h.symm)]; exact hx)

/-! ## One object -/

/-- Every registered key factory except DH-private has each secret attribute among those that storage encrypts. -/
theorem secrets_sealed : registry.all (fun e =>
    e.1 == (CKO_PRIVATE_KEY, CKK_DH) || (secretAttrs e.1.1 e.1.2).all fun t => e.2.sensitive.contains t) = true := by
  decide +kernel

/-- If the object is read at all, its planted ciphertext was its own. -/
theorem fetch_planted {e : Env} {st : Store} {hd : Handles} {n : Nat} {hints : List Nat} {o : Obj} {u : Bytes}
    (hf : st.fetch C e hd n hints = .ok o) (hu : hd.get n = some u) (he : st.aci.encrypt = true)
    {id cls kt t : Nat} {rows : List (Nat × DbVal)} {b k u' p : Bytes}
    (hm : (id, rows) ∈ st.db.objs) (hn : (AMap.keys rows).Nodup) (hru : (CKA_UNIQUE_ID, .text u) ∈ rows)
    (hrc : (CKA_CLASS, .int (Int.ofNat cls)) ∈ rows) (hrk : (CKA_KEY_TYPE, .int (Int.ofNat kt)) ∈ rows)
    (hc : cls < 2 ^ 32) (hk : kt < 2 ^ 32) (ht : t ∈ secretAttrs cls kt) (hdh : (cls, kt) ≠ (CKO_PRIVATE_KEY, CKK_DH))
    (hrt : (t, .blob b) ∈ rows) (hb : carries C k u' p b) (hin : hints = [] ∨ t ∈ hints) :
    st.aci.key = some k ∧ u' = u ∧ o.find t = some (Attr.ofBytes t p) := by
  unfold Store.fetch at hf
  rw [hu] at hf
  simp only at hf
  split at hf
  · cases hf
  · rename_i o1 h1
    have hints1 : fetchHints hints = [] ∨ (CKA_CLASS ∈ fetchHints hints ∧ CKA_KEY_TYPE ∈ fetchHints hints ∧ t ∈ fetchHints hints) := by
      rcases hin with h | h
      · left; rw [h]; rfl
      · have hne : hints ≠ [] := by intro e; rw [e] at h; cases h
        exact .inr ⟨(hints_types hne).1, (hints_types hne).2.1, mem_fetchHints h⟩
    have dec : decodeRows (Obj.new CK_UNAVAILABLE_INFORMATION) (pick (fetchHints hints) rows) = .ok o1 := by
      unfold Db.fetchByUid at h1
      split at h1
      · cases h1
      · split at h1
        · cases h1
        · simp only at h1
          split at h1
          · cases h1
          · rename_i o2 h2
            injection h1 with h1
            subst h1
            obtain ⟨g, hg, hd⟩ := rowsToObjects_one h2
            have hrow : hasRow rows CKA_UNIQUE_ID (.text u) = true := by
              unfold hasRow
              rw [List.any_eq_true]
              exact ⟨_, hru, by simp⟩
            split at hg
            · rename_i e0
              have : (id, rows) ∈ [g] := by rw [← hg]; exact List.mem_filter.2 ⟨hm, hrow⟩
              rw [List.mem_singleton] at this
              subst this
              unfold pick; rw [if_pos e0]; exact hd
            · rename_i e0
              have hcl : CKA_CLASS ∈ fetchHints hints := by
                rcases hints1 with h | h
                · exact absurd h e0
                · exact h.1
              have : (id, pick (fetchHints hints) rows) ∈ [g] := by
                rw [← hg]
                refine List.mem_filter.2 ⟨List.mem_map.2 ⟨_, List.mem_filter.2 ⟨hm, hrow⟩, ?_⟩, ?_⟩
                · unfold pick; rw [if_neg e0]
                · have : (CKA_CLASS, DbVal.int (Int.ofNat cls)) ∈ pick (fetchHints hints) rows := by
                    unfold pick; rw [if_neg e0]
                    exact List.mem_filter.2 ⟨hrc, by simpa using hcl⟩
                  cases hp : pick (fetchHints hints) rows with
                  | nil => rw [hp] at this; cases this
                  | cons _ _ => rfl
              rw [List.mem_singleton] at this
              subst this
              exact hd
          · cases h1
    have got : ∀ ty v, (ty, v) ∈ rows → (fetchHints hints = [] ∨ ty ∈ fetchHints hints) →
        ∃ a, decodeRow ty v = .ok a ∧ o1.find ty = some a := by
      intro ty v hv hh
      have := decodeRows_find (nodup_pick (hints := fetchHints hints) hn) dec ty
      rw [get_pick hn, if_pos hh, AMap.get_of_mem hn hv] at this
      exact this
    have num : ∀ ty m, attrKind ty = some .num → decodeRow ty (.int (Int.ofNat m)) = .ok (Attr.ofUlong ty m) := by
      intro ty m h
      unfold decodeRow
      rw [h]
      simp only [valToUlong]
      rw [if_neg (by simp only [Int.ofNat_eq_natCast]; omega), if_neg (by simp only [Int.ofNat_eq_natCast]; omega)]
      rfl
    obtain ⟨a1, d1, f1⟩ := got _ _ hrc (hints1.imp (fun h => h) fun h => h.1)
    obtain ⟨a2, d2, f2⟩ := got _ _ hrk (hints1.imp (fun h => h) fun h => h.2.1)
    obtain ⟨a3, d3, f3⟩ := got _ _ hrt (hints1.imp (fun h => h) fun h => h.2.2)
    rw [num _ _ (by decide +kernel)] at d1 d2
    injection d1 with d1; injection d2 with d2
    subst d1; subst d2
    have fac : ∀ F, objFactory o1 = .ok F → getFactory cls kt = .ok F := by
      intro F h
      unfold objFactory Obj.getUlong at h
      rw [f1, f2] at h
      simp only [toUlong_ofUlong _ _ (show cls < 2 ^ 64 by omega), toUlong_ofUlong _ _ (show kt < 2 ^ 64 by omega)] at h
      have hcls : Obj.secretClass cls = true := by
        unfold secretAttrs at ht
        by_cases h1 : cls = CKO_SECRET_KEY ∨ cls = CKO_OTP_KEY
        · rcases h1 with h1 | h1 <;> (rw [h1]; decide)
        · rw [if_neg h1] at ht
          by_cases h2 : cls = CKO_PRIVATE_KEY
          · rw [h2]; decide
          · rw [if_neg h2] at ht; cases ht
      have h1 : cls ≠ CKO_CERTIFICATE := by
        intro e; rw [e] at hcls; revert hcls; decide
      have h2 : keyClass cls = true := by simp [keyClass, hcls]
      simpa [h1, h2] using h
    split at hf
    · cases hf
    · rename_i F hF
      have hF := getFactory_mem (fac F hF)
      have hts : t ∈ F.sensitive := by
        have := secrets_sealed
        rw [List.all_eq_true] at this
        have := this _ hF
        simp only [Bool.or_eq_true, beq_iff_eq, hdh, false_or, List.all_eq_true] at this
        simpa using this t ht
      have hkind : attrKind t = some .bytes := by
        have := allFactories_spec sensitive_bytes hF
        rw [List.all_eq_true] at this
        simpa using this t hts
      have hnd : F.sensitive.Nodup := by
        have := allFactories_spec sensitive_nodup hF
        simpa using this
      simp only [he, if_true] at hf
      split at hf
      · cases hf
      · rename_i o2 h2
        injection hf with hf
        subst hf
        obtain ⟨e1, q, h3, h4⟩ := decryptLoop_each hnd h2 hts f3
        unfold decodeRow at d3
        rw [hkind] at d3
        injection d3 with d3
        subst d3
        obtain ⟨h5, h6, h7⟩ := decryptValue_carries h3 hb
        subst h7
        exact ⟨h5, h6, h4⟩

/-! ## All histories -/

theorem inv_overwrite {s : St} (hi : Inv s) (i : Nat) (t : ObjTable) : Inv (overwrite s i t) := by
  have get : ∀ j sl, AMap.get (overwrite s i t).slots j = some sl → ∃ sl', AMap.get s.slots j = some sl' ∧
      sl.sessions = sl'.sessions ∧ sl.token.logged = sl'.token.logged ∧ sl.token.info = sl'.token.info := by
    intro j sl hs
    unfold overwrite at hs
    simp only [AMap.get_modify] at hs
    split at hs
    · cases hj : AMap.get s.slots j with
      | none => rw [hj] at hs; cases hs
      | some sl' =>
        rw [hj] at hs
        injection hs with hs
        exact ⟨sl', rfl, by rw [← hs], by rw [← hs], by rw [← hs]⟩
    · exact ⟨sl, hs, rfl, rfl, rfl⟩
  have get' : ∀ j sl, AMap.get s.slots j = some sl → ∃ sl', AMap.get (overwrite s i t).slots j = some sl' ∧
      sl'.sessions = sl.sessions := by
    intro j sl hs
    unfold overwrite
    simp only [AMap.get_modify]
    split
    · rw [hs]; exact ⟨_, rfl, rfl⟩
    · exact ⟨sl, hs, rfl⟩
  refine ⟨?_, hi.smapND, ?_, ?_, hi.bound, ?_⟩
  · unfold overwrite; simp only [AMap.keys_modify]; exact hi.slotsND
  · intro j sl hs
    obtain ⟨sl', h1, h2, h3, h4⟩ := get j sl hs
    have := hi.slot j sl' h1
    exact ⟨h2 ▸ this.nd, h2 ▸ this.here, fun h => by rw [isInitialized_eq, h4, ← isInitialized_eq]; exact this.inited (h2 ▸ h),
      fun h => h3.trans (this.out (h2 ▸ h)), h2 ▸ this.rw, fun h => h2 ▸ this.so (h3 ▸ h)⟩
  · intro h j
    show AMap.get s.smap h = some j ↔ _
    rw [hi.link]
    constructor
    · rintro ⟨sl, x, h1, h2⟩
      obtain ⟨sl', h3, h4⟩ := get' j sl h1
      exact ⟨sl', x, h3, by rw [h4]; exact h2⟩
    · rintro ⟨sl, x, h1, h2⟩
      obtain ⟨sl', h3, h4, _⟩ := get j sl h1
      exact ⟨sl', x, h3, by rw [← h4]; exact h2⟩
  · intro h
    obtain ⟨h1, h2⟩ := hi.off h
    refine ⟨?_, h2⟩
    unfold overwrite
    simp only [h1]
    rfl

theorem encrypts_overwrite {s : St} (h : Encrypts s) (i : Nat) (t : ObjTable) : Encrypts (overwrite s i t) := by
  intro j sl hs
  unfold overwrite at hs
  simp only [AMap.get_modify] at hs
  split at hs
  · cases hj : AMap.get s.slots j with
    | none => rw [hj] at hs; cases hs
    | some sl' =>
      rw [hj] at hs
      injection hs with hs
      rw [← hs]
      exact h j sl' hj
  · exact h j sl hs

theorem tampered_inv (tr : List Tampered) {s : St} (hi : Inv s) (h : Encrypts s) :
    Inv (tampered M C O s tr) ∧ Encrypts (tampered M C O s tr) := by
  induction tr generalizing s with
  | nil => exact ⟨hi, h⟩
  | cons a tr ih =>
    cases a with
    | call e c => exact ih (inv_step M O e s c hi) (encrypts_step e c hi h)
    | write i t => exact ih (inv_overwrite hi i t) (encrypts_overwrite h i t)

/-- An object with a planted foreign ciphertext cannot be read. -/
theorem planted_unread {s : St} (h : Encrypts s) {i n t : Nat} {u k u' p : Bytes} (hp : Planted C s i u t k u' p)
    (hf : u' ≠ u ∨ ¬ holdsKey s i k) (hn : standsFor s i n u) :
    ∃ sl, AMap.get s.slots i = some sl ∧ ∀ e hints, (hints = [] ∨ t ∈ hints) →
      ∃ r, sl.token.store.fetch C e sl.token.handles n hints = .error r := by
  obtain ⟨sl, id, rows, cls, kt, b, h1, h2, h3, h4, h5, h6, h7, h8, h9, h10, h11, h12⟩ := hp.held
  refine ⟨sl, h1, fun e hints hin => ?_⟩
  cases hx : sl.token.store.fetch C e sl.token.handles n hints with
  | error r => exact ⟨r, rfl⟩
  | ok o =>
    exfalso
    obtain ⟨sl', g1, g2⟩ := hn
    rw [h1] at g1; injection g1 with g1; subst g1
    obtain ⟨a1, a2, _⟩ := fetch_planted hx g2 (h i sl h1) h2 h3 h4 h5 h6 h7 h8 h9 h10 h11 h12 hin
    rcases hf with hf | hf
    · exact hf a2
    · exact hf ⟨sl, h1, a1⟩

theorem fetchAll_bad {t : Token} {n : Nat} (bad : ∀ e, ∃ r, t.getObjectByHandle C e n = .error r) (e : Env) {hs : List Nat}
    (hn : n ∈ hs) (i : Nat) : ∃ r, fetchAll C e t hs i = .error r := by
  induction hs generalizing i with
  | nil => cases hn
  | cons h hs ih =>
    unfold fetchAll
    cases hg : t.getObjectByHandle C (e.sub i) h with
    | error r => exact ⟨r, rfl⟩
    | ok o =>
      simp only
      have hn : n ∈ hs := by
        rcases List.mem_cons.1 hn with e1 | h
        · obtain ⟨r, hr⟩ := bad (e.sub i)
          rw [e1, hg] at hr; cases hr
        · exact h
      obtain ⟨r, hr⟩ := ih hn (i + 1)
      rw [hr]
      exact ⟨r, rfl⟩

/-- A call that works with an object that cannot be read fails and does nothing. -/
theorem op_bad {t : Token} {n : Nat} (bad : ∀ e, ∃ r, t.getObjectByHandle C e n = .error r) (e : Env) (h : Nat) {c : OCall}
    (x : Session) (hw : actsOnObj M n (.op h c)) : ∃ r, opStep M C e h c x t = (.err r, x, t) := by
  cases c with
  | opInit k mech key sig =>
    cases mech with
    | none => cases hw
    | some mp =>
      obtain ⟨m, param⟩ := mp
      obtain ⟨h1, rfl⟩ := hw
      obtain ⟨r, hr⟩ := bad (e.sub 0)
      simp only [opStep, h1, if_false, fnInitKey, hr]
      repeat' split
      all_goals exact ⟨_, rfl⟩
  | digestKey key =>
    have : key = n := hw
    subst this
    obtain ⟨r, hr⟩ := bad (e.sub 0)
    simp only [opStep, fnDigestKey, hr]
    repeat' split
    all_goals exact ⟨_, rfl⟩
  | wrap m p w k out =>
    obtain ⟨r, hr⟩ := bad (e.sub 0)
    obtain ⟨r1, hr1⟩ := bad (e.sub 1)
    have hw : w = n ∨ k = n := hw
    rcases hw with rfl | rfl
    · simp only [opStep, fnWrap, hr1]
      repeat' split
      all_goals exact ⟨_, rfl⟩
    · simp only [opStep, fnWrap, hr]
      repeat' split
      all_goals exact ⟨_, rfl⟩
  | unwrap m p key data tm =>
    have : key = n := hw
    subst this
    obtain ⟨r, hr⟩ := bad (e.sub 0)
    simp only [opStep, fnUnwrap, hr]
    repeat' split
    all_goals exact ⟨_, rfl⟩
  | derive m p key tm =>
    have hw : key = n ∨ ∃ hs, M.deriveHandles m p = .ok hs ∧ n ∈ hs := hw
    have : ∃ r, fnDerive M C e h m p key tm x t = (.error r, t) := by
      unfold fnDerive
      rcases hw with rfl | ⟨hs, h1, h2⟩
      · obtain ⟨r, hr⟩ := bad (e.sub 0)
        simp only [hr]
        repeat' split
        all_goals exact ⟨_, rfl⟩
      · obtain ⟨r, hr⟩ := fetchAll_bad bad (e.sub 1) h2 0
        simp only [h1, hr]
        repeat' split
        all_goals exact ⟨_, rfl⟩
    obtain ⟨r, hr⟩ := this
    simp only [opStep, hr]
    exact ⟨_, rfl⟩
  | encapsulate m key tm out =>
    have : key = n := hw
    subst this
    obtain ⟨r, hr⟩ := bad (e.sub 0)
    simp only [opStep, fnEncap, hr]
    repeat' split
    all_goals exact ⟨_, rfl⟩
  | decapsulate m key data tm =>
    have : key = n := hw
    subst this
    obtain ⟨r, hr⟩ := bad (e.sub 0)
    simp only [opStep, fnDecap, hr]
    repeat' split
    all_goals exact ⟨_, rfl⟩
  | _ => cases hw

theorem sess_bad {t : Token} {n : Nat} (hs : AMap.get t.sess n = none)
    (bad : ∀ e, ∃ r, t.store.fetch C e t.handles n [] = .error r) (e : Env) (h : Nat) {c : SCall}
    (x : Session) (hw : actsOnObj M n (.sess h c)) : ∃ r, sessStep C O e h c x t = (.err r, x, t) := by
  have bad' : ∀ e, ∃ r, t.getObjectByHandle C e n = .error r := by
    intro e
    obtain ⟨r, hr⟩ := bad e
    exact ⟨r, by unfold Token.getObjectByHandle; simp only [hs, hr]⟩
  cases c with
  | copyObject o tm =>
    have : o = n := hw
    subst this
    obtain ⟨r, hr⟩ := bad (e.sub 0)
    simp only [sessStep, fnCopy, Token.copyObject, hs, hr]
    repeat' split
    all_goals exact ⟨_, rfl⟩
  | getObjectSize o =>
    have : o = n := hw
    subst this
    obtain ⟨r, hr⟩ := bad e
    simp only [sessStep, Token.getObjectSize, hs, hr]
    repeat' split
    all_goals exact ⟨_, rfl⟩
  | setAttr o tm =>
    have : o = n := hw
    subst this
    obtain ⟨r, hr⟩ := bad' (e.sub 0)
    simp only [sessStep, fnSetAttr, hr]
    repeat' split
    all_goals exact ⟨_, rfl⟩
  | destroyObject o =>
    have : o = n := hw
    subst this
    obtain ⟨r, hr⟩ := bad' (e.sub 0)
    simp only [sessStep, fnDestroy, hr]
    repeat' split
    all_goals exact ⟨_, rfl⟩
  | _ => cases hw

/-- C29, use: no call works with an object one of whose secret attributes is a ciphertext made for another object, or under a master
key that the token does not hold: it fails, makes nothing and begins nothing. -/
theorem C29_use (d : List (Nat × Db)) (tr : List Tampered) {i n t h : Nat} {u k u' p : Bytes}
    (hp : Planted C (tampered M C O (St.init d) tr) i u t k u' p)
    (hf : u' ≠ u ∨ ¬ holdsKey (tampered M C O (St.init d) tr) i k)
    (hn : standsFor (tampered M C O (St.init d) tr) i n u) (hse : sessionObj (tampered M C O (St.init d) tr) i n = none)
    (ho : onSlot M C O (tampered M C O (St.init d) tr) h i) (e : Env) (c : Call) (hh : Call.session? c = some h)
    (hw : actsOnObj M n c) :
    ∃ r sl sl', step M C O e (tampered M C O (St.init d) tr) c = (.err r, (tampered M C O (St.init d) tr).setSlot i sl') ∧
      AMap.get (tampered M C O (St.init d) tr).slots i = some sl ∧ sl'.token = sl.token ∧
      ∀ g, AMap.get sl'.sessions g = AMap.get sl.sessions g := by
  obtain ⟨hi, he⟩ := tampered_inv (M := M) (C := C) (O := O) tr (inv_empty d 0) (fun i sl h => by cases h)
  generalize hS : tampered M C O (St.init d) tr = s at *
  rw [show tampered M C O ⟨[], [], 0, d⟩ tr = s from hS] at hi he
  obtain ⟨sl, h1, bad⟩ := planted_unread he hp hf hn
  obtain ⟨sl', x, hg, h2, hx⟩ := getSession_live hi ((onSlot_iff hi).1 ho)
  rw [h1] at h2; injection h2 with h2; subst h2
  have se : AMap.get sl.token.sess n = none := by unfold sessionObj at hse; rw [h1] at hse; exact hse
  have same : ∀ g, AMap.get (AMap.modify sl.sessions h fun _ => x) g = AMap.get sl.sessions g := by
    intro g
    rw [AMap.get_modify]
    split
    · rename_i e1; rw [← e1, hx]; rfl
    · rfl
  cases c with
  | sess h' c =>
    injection hh with hh; subst hh
    obtain ⟨r, hr⟩ := sess_bad (M := M) (O := O) se (fun e => bad e [] (.inl rfl)) e h' x hw
    refine ⟨r, sl, ⟨sl.token, AMap.modify sl.sessions h' fun _ => x⟩, ?_, h1, rfl, same⟩
    unfold step
    simp only [hg, hr]
  | op h' c =>
    injection hh with hh; subst hh
    have bad' : ∀ e, ∃ r, sl.token.getObjectByHandle C e n = .error r := by
      intro e
      obtain ⟨r, hr⟩ := bad e [] (.inl rfl)
      exact ⟨r, by unfold Token.getObjectByHandle; simp only [se, hr]⟩
    obtain ⟨r, hr⟩ := op_bad (M := M) bad' e h' x hw
    refine ⟨r, sl, ⟨sl.token, AMap.modify sl.sessions h' fun _ => x⟩, ?_, h1, rfl, same⟩
    unfold step
    simp only [hg, hr]
  | _ => cases hh

/-- C29, reading: such an attribute is not delivered; the call fails and leaves the caller's template as it was. -/
theorem C29_read (d : List (Nat × Db)) (tr : List Tampered) {i n t h : Nat} {u k u' p : Bytes}
    (hp : Planted C (tampered M C O (St.init d) tr) i u t k u' p)
    (hf : u' ≠ u ∨ ¬ holdsKey (tampered M C O (St.init d) tr) i k)
    (hn : standsFor (tampered M C O (St.init d) tr) i n u) (hse : sessionObj (tampered M C O (St.init d) tr) i n = none)
    (ho : onSlot M C O (tampered M C O (St.init d) tr) h i) (e : Env) (q : List OutAttr) (hq : t ∈ q.map OutAttr.typ) :
    ∃ r, (step M C O e (tampered M C O (St.init d) tr) (.sess h (.getAttr n q))).1 = .err r ∨
      (step M C O e (tampered M C O (St.init d) tr) (.sess h (.getAttr n q))).1 = .attrs (.error r) q := by
  obtain ⟨hi, he⟩ := tampered_inv (M := M) (C := C) (O := O) tr (inv_empty d 0) (fun i sl h => by cases h)
  generalize hS : tampered M C O (St.init d) tr = s at *
  rw [show tampered M C O ⟨[], [], 0, d⟩ tr = s from hS] at hi he
  obtain ⟨sl, h1, bad⟩ := planted_unread he hp hf hn
  obtain ⟨sl', x, hg, h2, hx⟩ := getSession_live hi ((onSlot_iff hi).1 ho)
  rw [h1] at h2; injection h2 with h2; subst h2
  have se : AMap.get sl.token.sess n = none := by unfold sessionObj at hse; rw [h1] at hse; exact hse
  unfold step
  simp only [hg, sessStep]
  split
  · exact ⟨_, .inl rfl⟩
  · obtain ⟨r, hr⟩ := bad e (q.map OutAttr.typ ++ (if sl.token.loggedIn then [] else [CKA_TOKEN, CKA_PRIVATE]))
      (.inr (List.mem_append_left _ hq))
    refine ⟨r, .inr ?_⟩
    simp only [Token.getObjectAttrs, se, hr]

/-- C29, converse: a secret value that C_GetAttributeValue reports for a ciphertext is the one that was sealed for this very object
under the key the token holds. -/
theorem C29_value (d : List (Nat × Db)) (tr : List Tampered) {i n t h : Nat} {u k u' p v : Bytes}
    (hp : Planted C (tampered M C O (St.init d) tr) i u t k u' p)
    (hn : standsFor (tampered M C O (St.init d) tr) i n u) (hse : sessionObj (tampered M C O (St.init d) tr) i n = none)
    (ho : onSlot M C O (tampered M C O (St.init d) tr) h i)
    (hr : reports M C O (tampered M C O (St.init d) tr) h n t v) :
    u' = u ∧ holdsKey (tampered M C O (St.init d) tr) i k ∧ v = p := by
  obtain ⟨hi, he⟩ := tampered_inv (M := M) (C := C) (O := O) tr (inv_empty d 0) (fun i sl h => by cases h)
  generalize hS : tampered M C O (St.init d) tr = s at *
  rw [show tampered M C O ⟨[], [], 0, d⟩ tr = s from hS] at hi he
  obtain ⟨j, sl', x, e, hints, o, a, hm, hs', _, hlook, hin, _, hfind, _, hval⟩ := reports_obj hi hr
  have := (onSlot_iff hi).1 ho
  rw [hm] at this; injection this with this; subst this
  obtain ⟨sl, id, rows, cls, kt, b, h1, h2, h3, h4, h5, h6, h7, h8, h9, h10, h11, h12⟩ := hp.held
  rw [hs'] at h1; injection h1 with h1; subst h1
  obtain ⟨sl, g1, g2⟩ := hn
  rw [hs'] at g1; injection g1 with g1; subst g1
  have se : AMap.get sl'.token.sess n = none := by unfold sessionObj at hse; rw [hs'] at hse; exact hse
  unfold Token.looked at hlook
  rw [se] at hlook
  obtain ⟨a1, a2, a3⟩ := fetch_planted hlook g2 (he j sl' hs') h2 h3 h4 h5 h6 h7 h8 h9 h10 h11 h12 (.inr hin)
  refine ⟨a2, ⟨sl', hs', a1⟩, ?_⟩
  rw [a3] at hfind
  injection hfind with hfind
  rw [← hval, ← hfind]
  rfl

/-! ## C_InitToken draws a new key -/

/-- The 32 random bytes that C_InitToken draws. -/
def Spec.drawnKey (e : Env) : Bytes := ((e.sub 1).sub 1).rnd 32

/-- No C_InitToken on slot `i`, and no failure answers with a PIN code. -/
def Spec.leaves (i : Nat) : Tampered → Prop
  | .call e c => plain e ∧ ∀ p l, c ≠ .initToken i p l
  | .write _ _ => True

def Spec.smoothT : Tampered → Prop
  | .call e _ => plain e
  | .write _ _ => True

theorem dbAt_overwrite (s : St) (i j : Nat) (t : ObjTable) : (dbAt (overwrite s i t) j).metaT = (dbAt s j).metaT := by
  unfold dbAt overwrite
  simp only [AMap.get_modify]
  by_cases h : i = j
  · simp only [h, if_true]
    cases AMap.get s.slots j with
    | some sl => rfl
    | none =>
      cases AMap.get s.disks j with
      | some d => rfl
      | none => rfl
  · simp only [if_neg h]

theorem slotV_overwrite {s : St} {j : Nat} {K : Bytes} {v : Nat} {π : Pins} (h : SlotV C s j K v π) (i : Nat) (t : ObjTable) :
    SlotV C (overwrite s i t) j K v π := by
  refine ⟨h.1.congr (dbAt_overwrite s i j t), ?_⟩
  intro sl hs
  unfold overwrite at hs
  simp only [AMap.get_modify] at hs
  split at hs
  · cases hj : AMap.get s.slots j with
    | none => rw [hj] at hs; cases hs
    | some sl' =>
      rw [hj] at hs
      injection hs with hs
      have := h.2 sl' hj
      rw [← hs]
      exact ⟨this.db.congr rfl, this.aci, this.logged⟩
  · exact h.2 sl hs

theorem agree_overwrite {s : St} {o : Obs} (a : Kry.Agree s o) (i : Nat) (t : ObjTable) : Kry.Agree (overwrite s i t) o := by
  have get : ∀ j, (AMap.get (overwrite s i t).slots j).map (fun sl => (sl.token.logged, sl.sessions)) =
      (AMap.get s.slots j).map (fun sl => (sl.token.logged, sl.sessions)) := by
    intro j
    unfold overwrite
    simp only [AMap.get_modify]
    split
    · cases AMap.get s.slots j <;> rfl
    · rfl
  have vs : ∀ j h, vsess (overwrite s i t) j h = vsess s j h := by
    intro j h
    have := get j
    unfold vsess
    cases h1 : AMap.get (overwrite s i t).slots j <;> cases h2 : AMap.get s.slots j <;> rw [h1, h2] at this <;> simp at this ⊢
    rw [this.2]
  have vl : ∀ j, vlog (overwrite s i t) j = vlog s j := by
    intro j
    have := get j
    unfold vlog
    cases h1 : AMap.get (overwrite s i t).slots j <;> cases h2 : AMap.get s.slots j <;> rw [h1, h2] at this <;> simp at this ⊢
    exact this.1
  exact ⟨a.map, a.uniq, fun l hl => by rw [vs]; exact a.sess l hl, fun j => by rw [vl]; exact a.who j, a.issued⟩

/-- What is known of every slot at any time. -/
structure VaultAt (C : Crypto) (s : St) (i : Nat) (K : Bytes) : Prop where
  inv : Inv s
  agree : ∃ o, Kry.Agree s o
  vault : ∃ v π, SlotV C s i K v π

theorem vaultAt_step {e : Env} {c : Call} {s : St} {i : Nat} {K : Bytes} (hp : plain e) (h : VaultAt C s i K) :
    ∃ K', VaultAt C (step M C O e s c).2 i K' ∧ ((∀ p l, c ≠ .initToken i p l) → K' = K) := by
  obtain ⟨o, a⟩ := h.agree
  obtain ⟨v, π, hv⟩ := h.vault
  obtain ⟨K', v', π', ini, t1, _, _, _, _, t6⟩ := step_pins M O c h.inv a hp hv
  exact ⟨K', ⟨inv_step M O e s c h.inv, ⟨_, agree_step M O e c h.inv a⟩, ⟨v', π', t1⟩⟩, fun h => (t6 h).1⟩

theorem vaultAt_run (tr : List Tampered) (hp : ∀ a ∈ tr, smoothT a) {s : St} {i : Nat} {K : Bytes} (h : VaultAt C s i K) :
    ∃ K', VaultAt C (tampered M C O s tr) i K' ∧ ((∀ a ∈ tr, leaves i a) → K' = K) := by
  induction tr generalizing s K with
  | nil => exact ⟨K, h, fun _ => rfl⟩
  | cons a tr ih =>
    have hp' := fun x hx => hp x (List.mem_cons_of_mem _ hx)
    cases a with
    | call e c =>
      obtain ⟨K1, h1, h2⟩ := vaultAt_step (M := M) (O := O) (c := c) (hp _ (List.mem_cons_self ..)) h
      obtain ⟨K2, h3, h4⟩ := ih hp' h1
      exact ⟨K2, h3, fun hl => (h4 fun x hx => hl x (List.mem_cons_of_mem _ hx)).trans (h2 (hl _ (List.mem_cons_self ..)).2)⟩
    | write j t =>
      obtain ⟨o, a⟩ := h.agree
      obtain ⟨v, π, hv⟩ := h.vault
      obtain ⟨K2, h3, h4⟩ := ih hp' (s := overwrite s j t) (K := K)
        ⟨inv_overwrite h.inv j t, ⟨o, agree_overwrite a j t⟩, ⟨v, π, slotV_overwrite hv j t⟩⟩
      exact ⟨K2, h3, fun hl => h4 fun x hx => hl x (List.mem_cons_of_mem _ hx)⟩

theorem vaultAt_init {e : Env} {s : St} {i : Nat} {K pin : Bytes} {l : Option Bytes} (hp : plain e) (h : VaultAt C s i K)
    (hok : (step M C O e s (.initToken i pin l)).1 = .ok) : VaultAt C (step M C O e s (.initToken i pin l)).2 i (drawnKey e) := by
  obtain ⟨K', h1, _⟩ := vaultAt_step (M := M) (O := O) (c := .initToken i pin l) hp h
  refine ⟨h1.inv, h1.agree, ?_⟩
  obtain ⟨v, π, hv⟩ := h.vault
  have hok : (fnInitToken C e s i pin l).1 = .ok := hok
  show ∃ v π, SlotV C (fnInitToken C e s i pin l).2 i (drawnKey e) v π
  unfold fnInitToken at hok ⊢
  split at hok
  · cases hok
  · rename_i slj hg
    obtain ⟨hr, hj⟩ := getSlot_ok hg
    split at hok
    · cases hok
    · rename_i hne
      rw [if_neg hne]
      simp only at hok ⊢
      generalize hq : slj.token.initToken C e pin _ = q at hok ⊢
      have b : InitOut C e slj.token K v π pin q := hq ▸ token_initToken (hv.2 slj hj) hp
      obtain ⟨r, t⟩ := q
      cases b with
      | done _ K' v' hr h ho hi hf hl hK =>
        refine ⟨v', onlySo pin, slotV_some ((get_setSlot hj).trans (if_pos rfl)) ?_⟩
        unfold drawnKey
        rw [← hK]
        exact h
      | _ => exfalso; revert hok; simp only; split <;> simp_all

theorem vaultAt_start (i : Nat) : VaultAt C (St.init []) i (List.replicate 32 0) :=
  ⟨inv_empty [] 0, ⟨_, agree_empty []⟩, ⟨0, noPins, slotV_empty (by simp) i⟩⟩

/-- After a successful C_InitToken, whatever happens short of another one, and whatever objects are written to the database, the token
holds no key but the one drawn then. -/
theorem C29_key (tr₁ tr₂ : List Tampered) (h1 : ∀ a ∈ tr₁, smoothT a) (e : Env) (he : plain e) (i : Nat) (pin : Bytes)
    (l : Option Bytes) (hok : (step M C O e (tampered M C O (St.init []) tr₁) (.initToken i pin l)).1 = .ok)
    (h2 : ∀ a ∈ tr₂, leaves i a) (k : Bytes)
    (hk : holdsKey (tampered M C O (step M C O e (tampered M C O (St.init []) tr₁) (.initToken i pin l)).2 tr₂) i k) :
    k = drawnKey e := by
  obtain ⟨K, a1, _⟩ := vaultAt_run (M := M) (C := C) (O := O) tr₁ h1 (vaultAt_start i)
  have a2 := vaultAt_init (M := M) (O := O) he a1 hok
  obtain ⟨K', a3, a4⟩ := vaultAt_run (M := M) (O := O) tr₂ (fun a ha => by
    have := h2 a ha
    cases a with
    | call e c => exact this.1
    | write i t => trivial) a2
  have := a4 h2
  subst this
  obtain ⟨v, π, hv⟩ := a3.vault
  obtain ⟨sl, g1, g2⟩ := hk
  exact ((hv.2 sl g1).aci.key k g2).1

theorem tampered_append (s : St) (a b : List Tampered) : tampered M C O s (a ++ b) = tampered M C O (tampered M C O s a) b := by
  induction a generalizing s with
  | nil => rfl
  | cons x a ih => cases x <;> exact ih _

/-- C29, key generations: a ciphertext made before C_InitToken (under any key but the new one) and put back afterwards is not used. -/
theorem C29_reinit (tr₁ tr₂ : List Tampered) (h1 : ∀ a ∈ tr₁, smoothT a) (e : Env) (he : plain e) (i : Nat) (pin : Bytes)
    (l : Option Bytes) (hok : (step M C O e (tampered M C O (St.init []) tr₁) (.initToken i pin l)).1 = .ok)
    (h2 : ∀ a ∈ tr₂, leaves i a) {n t h : Nat} {u k u' p : Bytes} (hk : k ≠ drawnKey e)
    (hp : Planted C (tampered M C O (St.init []) (tr₁ ++ .call e (.initToken i pin l) :: tr₂)) i u t k u' p)
    (hn : standsFor (tampered M C O (St.init []) (tr₁ ++ .call e (.initToken i pin l) :: tr₂)) i n u)
    (hse : sessionObj (tampered M C O (St.init []) (tr₁ ++ .call e (.initToken i pin l) :: tr₂)) i n = none)
    (ho : onSlot M C O (tampered M C O (St.init []) (tr₁ ++ .call e (.initToken i pin l) :: tr₂)) h i)
    (e' : Env) (c : Call) (hh : Call.session? c = some h) (hw : actsOnObj M n c) :
    ∃ r, (step M C O e' (tampered M C O (St.init []) (tr₁ ++ .call e (.initToken i pin l) :: tr₂)) c).1 = .err r := by
  have hnot : ¬ holdsKey (tampered M C O (St.init []) (tr₁ ++ .call e (.initToken i pin l) :: tr₂)) i k := by
    rw [tampered_append]
    exact fun hx => hk (C29_key tr₁ tr₂ h1 e he i pin l hok h2 k hx)
  obtain ⟨r, _, _, hr, _⟩ := C29_use [] _ hp (.inr hnot) hn hse ho e' c hh hw
  exact ⟨r, by rw [hr]⟩

/-! ## Concrete cases -/

/-- Calls without interference. -/
def exCalls (tr : Trace) : List Tampered := tr.map fun p => .call p.1 p.2

/-- The user makes two AES keys (handles 8 and 9). -/
def exPair : Trace :=
  exC27In ++ [(exEnv 7, .sess 1 (.createObject exPlainKey)), (exEnv 8, .sess 1 (.createObject exPlainKey))]

/-- The stored objects, and the ciphertext of a value. -/
def exPairTab : ObjTable := ((AMap.get (exRun exPair).slots 7).map fun sl => sl.token.store.db.objs).getD []

def exPairBlob (n : Nat) : Bytes :=
  match (AMap.get exPairTab n).bind fun r => AMap.get r CKA_VALUE with
  | some (.blob b) => b
  | _ => []

/-- The first key with the ciphertext of the second. -/
def exMovedRows : List (Nat × DbVal) :=
  ((AMap.get exPairTab 1).getD []).map fun r => if r.1 = CKA_VALUE then (r.1, .blob (exPairBlob 2)) else r

def exMoved : List Tampered := exCalls exPair ++ [.write 7 (exPairTab.map fun g => if g.1 = 1 then (1, exMovedRows) else g)]

def exHeldKey : Bytes := [1, 1, 1] ++ List.replicate 29 0

def exUidA : Bytes := [97, 104, 97]
def exUidB : Bytes := [97, 105, 97]

/-- The state after tampering with the fresh module. -/
def exTamper (tr : List Tampered) : St := tampered exMechs exCrypto exOracle (St.init []) tr

set_option maxRecDepth 20000 in
theorem exPairBlob_carries : carries exCrypto exHeldKey exUidB exKeyBytes (exPairBlob 2) := by
  have h : (exCrypto.parse (exPairBlob 2)).map (fun d => (d.data, d.tag)) =
      some (exCrypto.enc (exCrypto.dek exHeldKey exUidB) ([8, 2] ++ List.replicate 10 0) exUidB exKeyBytes) := by decide +kernel
  obtain ⟨d, h1, h2⟩ := of_map h
  exact ⟨_, d, h1, h2⟩

set_option maxRecDepth 20000 in
theorem exPairBlob_carries1 : carries exCrypto exHeldKey exUidA exKeyBytes (exPairBlob 1) := by
  have h : (exCrypto.parse (exPairBlob 1)).map (fun d => (d.data, d.tag)) =
      some (exCrypto.enc (exCrypto.dek exHeldKey exUidA) ([7, 2] ++ List.replicate 10 0) exUidA exKeyBytes) := by decide +kernel
  obtain ⟨d, h1, h2⟩ := of_map h
  exact ⟨_, d, h1, h2⟩

theorem planted_of {S : St} {i : Nat} {u b k u' p : Bytes} {rows : List (Nat × DbVal)}
    (h : (AMap.get S.slots i).map (fun sl => decide ((1, rows) ∈ sl.token.store.db.objs)) = some true)
    (hn : (AMap.keys rows).Nodup) (hu : (CKA_UNIQUE_ID, .text u) ∈ rows)
    (hc : (CKA_CLASS, .int (Int.ofNat CKO_SECRET_KEY)) ∈ rows) (hk : (CKA_KEY_TYPE, .int (Int.ofNat CKK_AES)) ∈ rows)
    (hb : (CKA_VALUE, .blob b) ∈ rows) (hcar : carries C k u' p b) : Planted C S i u CKA_VALUE k u' p := by
  obtain ⟨sl, h1, h2⟩ := of_map h
  exact ⟨sl, 1, rows, _, _, b, h1, of_decide_eq_true h2, hn, hu, hc, hk, by decide, by decide, by decide, by decide, hb, hcar⟩

set_option maxRecDepth 20000 in
theorem exMoved_planted : Planted exCrypto (exTamper exMoved) 7 exUidA CKA_VALUE exHeldKey exUidB exKeyBytes :=
  planted_of (rows := exMovedRows) (by decide +kernel) (by decide +kernel) (by decide +kernel) (by decide +kernel)
    (by decide +kernel) (by decide +kernel) exPairBlob_carries

set_option maxRecDepth 20000 in
theorem exMoved_stands : standsFor (exTamper exMoved) 7 8 exUidA := by
  have h : (AMap.get (exTamper exMoved).slots 7).map (fun sl : Slot => sl.token.handles.get 8) = some (some exUidA) := by decide +kernel
  exact of_map h

/-- `C29_use` and `C29_read`: the ciphertext of key 9 sits in key 8. -/
example : Planted exCrypto (exTamper exMoved) 7 exUidA CKA_VALUE exHeldKey exUidB exKeyBytes ∧ exUidB ≠ exUidA ∧
    standsFor (exTamper exMoved) 7 8 exUidA ∧ sessionObj (exTamper exMoved) 7 8 = none ∧
    onSlot exMechs exCrypto exOracle (exTamper exMoved) 1 7 ∧ Call.session? (.sess 1 (.destroyObject 8)) = some 1 ∧
    actsOnObj exMechs 8 (.sess 1 (.destroyObject 8)) :=
  ⟨exMoved_planted, by decide, exMoved_stands, by decide +kernel, ⟨quietEnv, .rwUser, 6, by decide +kernel⟩, rfl, rfl⟩

set_option maxRecDepth 20000 in
example : (step exMechs exCrypto exOracle (exEnv 9) (exTamper exMoved) (.sess 1 (.destroyObject 8))).1 = .err .encryptedDataInvalid ∧
    (step exMechs exCrypto exOracle (exEnv 9) (exTamper exMoved) (.sess 1 (.destroyObject 9))).1 = .ok := by decide +kernel

def exPairRows : List (Nat × DbVal) := (AMap.get exPairTab 1).getD []

set_option maxRecDepth 20000 in
/-- `C29_value`: without interference the key is read. -/
example : Planted exCrypto (exTamper (exCalls exPair)) 7 exUidA CKA_VALUE exHeldKey exUidA exKeyBytes ∧
    standsFor (exTamper (exCalls exPair)) 7 8 exUidA ∧ sessionObj (exTamper (exCalls exPair)) 7 8 = none ∧
    onSlot exMechs exCrypto exOracle (exTamper (exCalls exPair)) 1 7 ∧
    reports exMechs exCrypto exOracle (exTamper (exCalls exPair)) 1 8 CKA_VALUE exKeyBytes := by
  refine ⟨planted_of (rows := exPairRows) (by decide +kernel) (by decide +kernel) (by decide +kernel) (by decide +kernel)
    (by decide +kernel) (by decide +kernel) exPairBlob_carries1, ?_, by decide +kernel,
    ⟨quietEnv, .rwUser, 6, by decide +kernel⟩,
    ⟨quietEnv, ⟨CKA_VALUE, false, 16, List.replicate 16 0⟩, ⟨CKA_VALUE, false, 16, exKeyBytes⟩, rfl, rfl, by decide +kernel, by decide⟩⟩
  have h : (AMap.get (exTamper (exCalls exPair)).slots 7).map (fun sl : Slot => sl.token.handles.get 8) = some (some exUidA) := by
    decide +kernel
  exact of_map h

/-- The token is initialised again, PINs are set as before, the old objects are put back and found. -/
def exBefore : List Tampered := exCalls (exPair ++ [(exEnv 17, .closeAll 7)])

def exAgain : List Tampered :=
  [.call (exEnv 10) (.openSession 7 (CKF_RW_SESSION ||| CKF_SERIAL_SESSION)), .call (exEnv 11) (.login 2 CKU_SO exSoPin),
   .call (exEnv 12) (.sess 2 (.initPin exPin)), .call (exEnv 13) (.logout 2), .call (exEnv 14) (.login 2 CKU_USER exPin),
   .write 7 exPairTab, .call (exEnv 15) (.sess 2 (.findInit [.ofUlong CKA_CLASS CKO_SECRET_KEY])),
   .call (exEnv 16) (.sess 2 (.find 5))]

def exAfter : St := exTamper (exBefore ++ .call (exEnv 9) (.initToken 7 exSoPin none) :: exAgain)

set_option maxRecDepth 20000 in
/-- `C29_reinit`: hypotheses. -/
example : (∀ a ∈ exBefore, smoothT a) ∧ plain (exEnv 9) ∧
    (step exMechs exCrypto exOracle (exEnv 9) (exTamper exBefore) (.initToken 7 exSoPin none)).1 = .ok ∧
    (∀ a ∈ exAgain, leaves 7 a) ∧ exHeldKey ≠ drawnKey (exEnv 9) ∧
    Planted exCrypto exAfter 7 exUidA CKA_VALUE exHeldKey exUidA exKeyBytes ∧ standsFor exAfter 7 8 exUidA ∧
    sessionObj exAfter 7 8 = none ∧ onSlot exMechs exCrypto exOracle exAfter 2 7 ∧
    actsOnObj exMechs 8 (.op 2 (.opInit .enc (some (CKM_AES_ECB, [])) 8 [])) := by
  refine ⟨?_, exEnv_plain _, by decide +kernel, ?_, by decide +kernel,
    planted_of (rows := exPairRows) (by decide +kernel) (by decide +kernel) (by decide +kernel) (by decide +kernel)
    (by decide +kernel) (by decide +kernel) exPairBlob_carries1, ?_, by decide +kernel,
    ⟨quietEnv, .rwUser, 6, by decide +kernel⟩, ⟨by decide, rfl⟩⟩
  · intro a ha
    simp only [exBefore, exCalls, exPair, exC27In, exStart, List.cons_append, List.nil_append, List.map_cons, List.map_nil,
      List.mem_cons, List.not_mem_nil, or_false] at ha
    rcases ha with rfl | rfl | rfl | rfl | rfl | rfl | rfl | rfl | rfl | rfl <;> exact exEnv_plain _
  · intro a ha
    simp only [exAgain, List.mem_cons, List.not_mem_nil, or_false] at ha
    rcases ha with rfl | rfl | rfl | rfl | rfl | rfl | rfl | rfl
    all_goals first
      | exact ⟨exEnv_plain _, fun _ _ => nofun⟩
      | trivial
  · have h : (AMap.get exAfter.slots 7).map (fun sl : Slot => sl.token.handles.get 8) = some (some exUidA) := by decide +kernel
    exact of_map h

set_option maxRecDepth 20000 in
example : (step exMechs exCrypto exOracle (exEnv 20) exAfter (.op 2 (.opInit .enc (some (CKM_AES_ECB, [])) 8 []))).1 =
    .err .keyChanged := by decide +kernel

/-! ## DH private keys -/

def exDhRows : List (Nat × DbVal) :=
  [(CKA_CLASS, .int 3), (CKA_KEY_TYPE, .int 2), (CKA_TOKEN, .int 1), (CKA_PRIVATE, .int 1), (CKA_SENSITIVE, .int 0),
   (CKA_EXTRACTABLE, .int 1), (CKA_UNIQUE_ID, .text [97, 120, 97]), (CKA_VALUE, .blob (exPairBlob 2))]

def exDhMove : List Tampered := exCalls exPair ++ [.write 7 (exPairTab ++ [(3, exDhRows)]),
  .call (exEnv 15) (.sess 1 (.findInit [.ofUlong CKA_CLASS CKO_PRIVATE_KEY])), .call (exEnv 16) (.sess 1 (.find 5))]

set_option maxRecDepth 20000 in
/-- The ciphertext of an AES key's value, put into a DH private key, is taken for that key: C_GetAttributeValue reports it. -/
theorem C29_dh_violation : ∃ (tr : List Tampered) (u' p b : Bytes) (n : Nat),
    carries exCrypto exHeldKey u' p b ∧ standsFor (exTamper tr) 7 n [97, 120, 97] ∧ u' ≠ [97, 120, 97] ∧
    reports exMechs exCrypto exOracle (exTamper tr) 1 n CKA_KEY_TYPE (toLE 8 CKK_DH) ∧
    reports exMechs exCrypto exOracle (exTamper tr) 1 n CKA_VALUE b := by
  refine ⟨exDhMove, exUidB, exKeyBytes, exPairBlob 2, 10, exPairBlob_carries, ?_, by decide,
    ⟨quietEnv, ⟨CKA_KEY_TYPE, false, 8, List.replicate 8 0⟩, ⟨CKA_KEY_TYPE, false, 8, toLE 8 CKK_DH⟩, rfl, rfl,
      by decide +kernel, by decide +kernel⟩,
    ⟨quietEnv, ⟨CKA_VALUE, false, (exPairBlob 2).length, exPairBlob 2⟩, ⟨CKA_VALUE, false, (exPairBlob 2).length, exPairBlob 2⟩, rfl, rfl,
      by decide +kernel, by decide +kernel⟩⟩
  have h : (AMap.get (exTamper exDhMove).slots 7).map (fun sl : Slot => sl.token.handles.get 10) = some (some [97, 120, 97]) := by
    decide +kernel
  exact of_map h

end Kry
