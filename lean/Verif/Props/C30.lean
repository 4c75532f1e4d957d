import Verif.Proofs.Sealed
import Verif.Proofs.NoKey

/-!
# C30: no secret is stored in the clear

`C30_disk_partial`: in every state reached from an empty disk, each secret attribute of a key object in the database of a slot is a ciphertext made for
that object under a master key that the token of that slot has held.  `C30_memory_partial`: while nobody is logged in, the token holds no master key.

Missing: the calls that break it are excluded: C_SetAttributeValue with the same attribute twice
(`C30_twice_violation`) or of the class (`C30_class_violation`; a change of the key type is excluded with it),
C_CopyObject into another class (`C30_copy_violation`), DH private keys (`C30_dh_violation`), and
a logout that fails (`C30_logout_violation`).  Histories with a configuration that merges equal objects and, for the second theorem, with any other
failing call are left out as well; whether the property holds there is open.
-/

namespace Kry
namespace Spec

/-- The database of slot `i` holds an object with these rows, a key of class `cls` and type `kt`. -/
structure Filed (s : St) (i : Nat) (rows : List (Nat × DbVal)) (cls kt : Nat) : Prop where
  held : ∃ id, (id, rows) ∈ (dbAt s i).objs
  cls : (CKA_CLASS, .int (Int.ofNat cls)) ∈ rows
  kt : (CKA_KEY_TYPE, .int (Int.ofNat kt)) ∈ rows

end Spec

open Spec

variable {C : Crypto} {M : Mechs} {O : Oracle}

theorem decode_num {ty m : Nat} (hm : m < 2 ^ 32) (h : attrKind ty = some .num) :
    decodeRow ty (.int (Int.ofNat m)) = .ok (Attr.ofUlong ty m) := by
  unfold decodeRow
  rw [h]
  simp only [valToUlong]
  rw [if_neg (by simp only [Int.ofNat_eq_natCast]; omega), if_neg (by simp only [Int.ofNat_eq_natCast]; omega)]
  rfl

/-- Reading the invariant off for one row. -/
theorem sealed_filed {P : Bytes → Prop} {s : St} {i : Nat} {rows : List (Nat × DbVal)} {cls kt t : Nat} {w : DbVal} (ok : TblOk (dbAt s i).objs)
    (h : SealedT C P (dbAt s i).objs) (hf : Filed s i rows cls kt) (hc : cls < 2 ^ 32) (hk : kt < 2 ^ 32)
       (ht : t ∈ secretAttrs cls kt) (hdh : (cls, kt) ≠ (CKO_PRIVATE_KEY, CKK_DH)) (hrt : (t, w) ∈ rows) :
    ∃ u b k p, (CKA_UNIQUE_ID, .text u) ∈ rows ∧ w = .blob b ∧ P k ∧ carries C k u p b := by
  obtain ⟨id, hm⟩ := hf.held
  have hrc := hf.cls
  have hrk := hf.kt
  have hn := ok.rows _ hm
  obtain ⟨u, hrow⟩ := h.named _ hm
  have hru : (CKA_UNIQUE_ID, .text u) ∈ rows := AMap.get_mem ((hasRow_get hn).1 hrow)
  obtain ⟨o, f, hd, hkind, _, ⟨F, hF⟩, hs⟩ := h.rows u rows ((rowsOf_iff ok).2 ⟨id, hm, hrow⟩)
  have got : ∀ ty v, (ty, v) ∈ rows → ∃ a, f ty = some a ∧ decodeRow ty v = .ok a := by
    intro ty v hv
    have := hd ty
    rw [AMap.get_of_mem hn hv] at this
    exact this
  obtain ⟨a1, f1, d1⟩ := got _ _ hrc
  obtain ⟨a2, f2, d2⟩ := got _ _ hrk
  obtain ⟨a3, f3, d3⟩ := got _ _ hrt
  rw [decode_num hc (by decide +kernel)] at d1
  rw [decode_num hk (by decide +kernel)] at d2
  injection d1 with d1; injection d2 with d2
  subst d1; subst d2
  rw [hkind _ (by decide)] at f1 f2
  have fac : getFactory cls kt = .ok F := by
    unfold objFactory Obj.getUlong at hF
    rw [f1, f2] at hF
    simp only [toUlong_ofUlong _ _ (show cls < 2 ^ 64 by omega), toUlong_ofUlong _ _ (show kt < 2 ^ 64 by omega)] at hF
    have hcls : Obj.secretClass cls = true := by
      unfold secretAttrs at ht
      by_cases h1 : cls = CKO_SECRET_KEY ∨ cls = CKO_OTP_KEY
      · rcases h1 with h1 | h1 <;> (rw [h1]; decide)
      · rw [if_neg h1] at ht
        by_cases h2 : cls = CKO_PRIVATE_KEY
        · rw [h2]; decide
        · rw [if_neg h2] at ht; cases ht
    have h1 : cls ≠ CKO_CERTIFICATE := by
      intro e; rw [e] at hcls; revert hcls; decide
    have h2 : keyClass cls = true := by simp [keyClass, hcls]
    simpa [h1, h2] using hF
  have hts : t ∈ F.sensitive := by
    have := secrets_sealed
    rw [List.all_eq_true] at this
    have := this _ (getFactory_mem fac)
    simp only [Bool.or_eq_true, beq_iff_eq, hdh, false_or, List.all_eq_true] at this
    simpa using this t ht
  have hkb := sens_bytes hF t hts
  obtain ⟨k, p, hk, hca⟩ := hs F hF t hts a3 f3
  unfold decodeRow at d3
  rw [hkb] at d3
  cases w with
  | blob b =>
    injection d3 with d3
    subst d3
    exact ⟨u, b, k, p, hru, rfl, hk, hca⟩
  | _ => cases d3

/-- All the invariants at once. -/
theorem sealed_run (hR : RegularMechs M O) (hM : plainMechs M) (i : Nat) (tr : Trace) (hc : ∀ p ∈ tr, noMerge p.2 ∧ plainCall p.2) :
    Inv (after M C O [] tr) ∧ TInv (after M C O [] tr) ∧ RInv (after M C O [] tr) ∧ Encrypts (after M C O [] tr) ∧
    (∀ i sl, AMap.get (after M C O [] tr).slots i = some sl → sl.token.cfg.dedup = none) ∧
    SealedT C (fun k => ∃ tr₁ tr₂, tr = tr₁ ++ tr₂ ∧ holdsKey (after M C O [] tr₁) i k) (dbAt (after M C O [] tr) i).objs := by
  revert hc
  generalize hn : tr.length = n
  intro hc
  induction n generalizing tr with
  | zero =>
    have : tr = [] := List.length_eq_zero_iff.1 hn
    subst this
    exact ⟨inv_empty [] 0, tinv_init nofun, rinv_init [], nofun, nofun, nofun, fun u r hr => by cases hr⟩
  | succ n ih =>
    obtain ⟨tr', x, rfl⟩ : ∃ tr' x, tr = tr' ++ [x] := by
      have hne : tr ≠ [] := by intro h; rw [h] at hn; cases hn
      exact ⟨tr.dropLast, tr.getLast hne, (List.dropLast_concat_getLast hne).symm⟩
    have hx := hc x (by simp)
    obtain ⟨h1, h2, h3, h4, h5, h6⟩ := ih tr' (by simpa using hn) fun p hp => hc p (List.mem_append_left _ hp)
    have e0 : after M C O [] (tr' ++ [x]) = (step M C O x.1 (after M C O [] tr') x.2).2 := run_snoc ..
    rw [e0]
    refine ⟨inv_step M O _ _ _ h1, tinv_step M O _ _ _ h1 h2, rinv_step hR hM _ _ _ hx.2 h1 h2 h3, encrypts_step _ _ h1 h4,
      noDedup_step h1 hx.1 h5, ?_⟩
    refine sealed_step h1 h2 h3 h4 hR hM h5 hx.2 (fun k hk => ⟨tr', [x], rfl, hk⟩) (h6.mono ?_)
    rintro k ⟨a, b, rfl, hk⟩
    exact ⟨a, b ++ [x], by simp, hk⟩

/-- What the database holds of a secret attribute is a ciphertext, for that object, under a key that the token has held. -/
theorem C30_disk_partial (hR : RegularMechs M O) (hM : plainMechs M) (tr : Trace) (hc : ∀ p ∈ tr, noMerge p.2 ∧ plainCall p.2)
    {i : Nat} {rows : List (Nat × DbVal)} {cls kt t : Nat} {w : DbVal} (hf : Filed (after M C O [] tr) i rows cls kt) (h1 : cls < 2 ^ 32) (h2 : kt < 2 ^ 32)
    (ht : t ∈ secretAttrs cls kt) (hdh : (cls, kt) ≠ (CKO_PRIVATE_KEY, CKK_DH)) (hw : (t, w) ∈ rows) :
    ∃ u b k p, (CKA_UNIQUE_ID, .text u) ∈ rows ∧ w = .blob b ∧ carries C k u p b ∧ ∃ tr₁ tr₂, tr = tr₁ ++ tr₂ ∧ holdsKey (after M C O [] tr₁) i k := by
  obtain ⟨a1, a2, _, _, _, a6⟩ := sealed_run (C := C) hR hM i tr hc
  have ok : TblOk (dbAt (after M C O [] tr) i).objs := by
    unfold dbAt
    split
    · exact a2.slots _ _ ‹_›
    · split
      · exact a2.disks _ _ ‹_›
      · exact tblOk_nil
  obtain ⟨u, b, k, p, e0, e1, e2, e3⟩ := sealed_filed ok a6 hf h1 h2 ht hdh hw
  exact ⟨u, b, k, p, e0, e1, e3, e2⟩

/-- While nobody is logged in to the slot, its token holds no key. -/
theorem C30_memory_partial (tr : Trace) (hq : ∀ p ∈ tr, quiet p.1) (i : Nat) (hl : (notes M C O [] tr).who i = none) (k : Bytes) :
    ¬ holdsKey (after M C O [] tr) i k := by
  have all : (∃ K, VaultAt C (after M C O [] tr) i K) ∧ ShutAt (after M C O [] tr) i := by
    clear hl
    generalize hn : tr.length = n
    induction n generalizing tr with
    | zero =>
      have : tr = [] := List.length_eq_zero_iff.1 hn
      subst this
      exact ⟨⟨_, vaultAt_start i⟩, nofun⟩
    | succ n ih =>
      obtain ⟨tr', x, rfl⟩ : ∃ tr' x, tr = tr' ++ [x] := by
        have hne : tr ≠ [] := by intro h; rw [h] at hn; cases hn
        exact ⟨tr.dropLast, tr.getLast hne, (List.dropLast_concat_getLast hne).symm⟩
      have hx := hq x (by simp)
      obtain ⟨⟨K, h1⟩, h2⟩ := ih tr' (fun p hp => hq p (List.mem_append_left _ hp)) (by simpa using hn)
      have e0 : after M C O [] (tr' ++ [x]) = (step M C O x.1 (after M C O [] tr') x.2).2 := run_snoc ..
      rw [e0]
      obtain ⟨K', h3, _⟩ := vaultAt_step (M := M) (O := O) (c := x.2) (quiet_plain hx) h1
      obtain ⟨v, π, hv⟩ := h1.vault
      exact ⟨⟨K', h3⟩, shut_step hx h1.inv hv h2⟩
  rintro ⟨sl, hs, hk⟩
  have a := (agree_reach (C := C) M O [] tr).who i
  have hl : vlog (after M C O [] tr) i = none := a.symm.trans hl
  unfold vlog at hl
  rw [hs] at hl
  have := all.2 sl hs hl
  rw [this] at hk
  cases hk

/-! ## The hypotheses are met -/

theorem exMechs_plain : plainMechs exMechs := by
  intro e k a op i n tm h
  simp only [exMechs] at h
  split at h <;> cases h

theorem exConf_apart : noMerge (.initialize exConf) := by
  show ∀ p ∈ exConf, p.2.dedup = none
  decide

/-- The rows of object `n` in slot 7 after a run. -/
def exFiled (tr : Trace) (n : Nat) : List (Nat × DbVal) := (AMap.get (dbAt (exRun tr) 7).objs n).getD []

/-- Two keys are made, the label of one and the value of the other are changed. -/
def exSealed : Trace := exPair ++
  [(exEnv 9, .sess 1 (.setAttr 8 [.mk' CKA_LABEL [65]])), (exEnv 10, .sess 1 (.setAttr 9 [.mk' CKA_VALUE exKeyBytes])), (exEnv 11, .logout 1)]

set_option maxRecDepth 20000 in
example : (exOuts exSealed).drop 7 = [.handle 8, .handle 9, .ok, .ok, .ok] := by decide +kernel

set_option maxRecDepth 20000 in
/-- The hypotheses of `C30_disk_partial` hold for this history and both objects. -/
example : RegularMechs exMechs exOracle ∧ plainMechs exMechs ∧ (∀ p ∈ exSealed, noMerge p.2 ∧ plainCall p.2) ∧
    Filed (exRun exSealed) 7 (exFiled exSealed 2) CKO_SECRET_KEY CKK_AES ∧ CKA_VALUE ∈ secretAttrs CKO_SECRET_KEY CKK_AES ∧
    ∃ w, (CKA_VALUE, w) ∈ exFiled exSealed 2 := by
  refine ⟨exMechs_regular, exMechs_plain, ?_, ⟨⟨2, ?_⟩, ?_, ?_⟩, by decide, ?_⟩
  · intro p hp
    simp only [exSealed, exPair, exC27In, exStart, List.cons_append, List.nil_append, List.mem_cons, List.not_mem_nil, or_false] at hp
    rcases hp with rfl | rfl | rfl | rfl | rfl | rfl | rfl | rfl | rfl | rfl | rfl | rfl
    all_goals first
      | exact ⟨trivial, trivial⟩
      | exact ⟨exConf_apart, trivial⟩
      | exact ⟨trivial, show plainSet _ from ⟨by decide, by decide⟩⟩
  · have : AMap.get (dbAt (exRun exSealed) 7).objs 2 = some (exFiled exSealed 2) := by decide +kernel
    exact AMap.get_mem this
  · decide +kernel
  · decide +kernel
  · have : (AMap.get (exFiled exSealed 2) CKA_VALUE).isSome = true := by decide +kernel
    obtain ⟨w, hw⟩ := Option.isSome_iff_exists.1 this
    exact ⟨w, AMap.get_mem hw⟩

set_option maxRecDepth 20000 in
/-- The hypotheses of `C30_memory_partial` hold for it, although the token did hold a key before the logout. -/
example : (∀ p ∈ exSealed, quiet p.1) ∧ (notes exMechs exCrypto exOracle [] exSealed).who 7 = none ∧
    holdsKey (exRun exPair) 7 exHeldKey := by
  refine ⟨?_, by decide +kernel, ?_⟩
  · intro p hp
    simp only [exSealed, exPair, exC27In, exStart, List.cons_append, List.nil_append, List.mem_cons, List.not_mem_nil, or_false] at hp
    rcases hp with rfl | rfl | rfl | rfl | rfl | rfl | rfl | rfl | rfl | rfl | rfl | rfl <;> exact exEnv_quiet _
  · have h : (AMap.get (exRun exPair).slots 7).map (fun sl : Slot => sl.token.store.aci.key) = some (some exHeldKey) := by decide +kernel
    exact of_map h

/-! ## Violations of the full property -/

/-- A stored key, the value of which is set twice in one template. -/
def exSetTwice : Trace := exC27In ++
  [(exEnv 7, .sess 1 (.createObject exPlainKey)),
   (exEnv 8, .sess 1 (.setAttr 8 [.mk' CKA_VALUE (exKeyBytes.reverse), .mk' CKA_VALUE exKeyBytes]))]

set_option maxRecDepth 20000 in
/-- C_SetAttributeValue encrypts the first of two entries of one type only (`src/storage/format.rs:395-418`), and the last is stored. -/
theorem C30_twice_violation : ∃ tr : Trace, (∀ p ∈ tr, noMerge p.2) ∧ (outs exMechs exCrypto exOracle (St.init []) tr).getLast? = some .ok ∧
    ∃ rows, Filed (after exMechs exCrypto exOracle [] tr) 7 rows CKO_SECRET_KEY CKK_AES ∧ (CKA_VALUE, .blob exKeyBytes) ∈ rows := by
  refine ⟨exSetTwice, ?_, by decide +kernel, exFiled exSetTwice 1, ⟨⟨1, ?_⟩, ?_, ?_⟩, ?_⟩
  · intro p hp
    simp only [exSetTwice, exC27In, exStart, List.cons_append, List.nil_append, List.mem_cons, List.not_mem_nil, or_false] at hp
    rcases hp with rfl | rfl | rfl | rfl | rfl | rfl | rfl | rfl | rfl
    all_goals first | trivial | exact exConf_apart
  · have : AMap.get (dbAt (exRun exSetTwice) 7).objs 1 = some (exFiled exSetTwice 1) := by decide +kernel
    exact AMap.get_mem this
  · decide +kernel
  · decide +kernel
  · decide +kernel

/-- A stored key turned into a data object, given a value as such, and turned back into a key. -/
def exClassBack : Trace := exC27In ++
  [(exEnv 7, .sess 1 (.createObject exPlainKey)), (exEnv 8, .sess 1 (.setAttr 8 [.ofUlong CKA_CLASS CKO_DATA])),
   (exEnv 9, .sess 1 (.setAttr 8 [.mk' CKA_VALUE exKeyBytes])), (exEnv 10, .sess 1 (.setAttr 8 [.ofUlong CKA_CLASS CKO_SECRET_KEY]))]

set_option maxRecDepth 20000 in
/-- C_SetAttributeValue may change the class (`src/object/factory.rs:267-269`), and the value of a data object is not encrypted. -/
theorem C30_class_violation : ∃ tr : Trace, (∀ p ∈ tr, noMerge p.2) ∧ (outs exMechs exCrypto exOracle (St.init []) tr).getLast? = some .ok ∧
    ∃ rows, Filed (after exMechs exCrypto exOracle [] tr) 7 rows CKO_SECRET_KEY CKK_AES ∧ (CKA_VALUE, .blob exKeyBytes) ∈ rows := by
  refine ⟨exClassBack, ?_, by decide +kernel, exFiled exClassBack 1, ⟨⟨1, ?_⟩, ?_, ?_⟩, ?_⟩
  · intro p hp
    simp only [exClassBack, exC27In, exStart, List.cons_append, List.nil_append, List.mem_cons, List.not_mem_nil, or_false] at hp
    rcases hp with rfl | rfl | rfl | rfl | rfl | rfl | rfl | rfl | rfl | rfl | rfl
    all_goals first | trivial | exact exConf_apart
  · have : AMap.get (dbAt (exRun exClassBack) 7).objs 1 = some (exFiled exClassBack 1) := by decide +kernel
    exact AMap.get_mem this
  · decide +kernel
  · decide +kernel
  · decide +kernel

/-- A stored key copied as a data object. -/
def exCopyClass : Trace := exC27In ++
  [(exEnv 7, .sess 1 (.createObject exPlainKey)), (exEnv 8, .sess 1 (.copyObject 8 [.ofUlong CKA_CLASS CKO_DATA]))]

set_option maxRecDepth 20000 in
/-- C_CopyObject with another class in its template: no attribute of a data object is encrypted, and the row of the class is still that of a key. -/
theorem C30_copy_violation : ∃ tr : Trace, (∀ p ∈ tr, noMerge p.2) ∧
    (outs exMechs exCrypto exOracle (St.init []) tr).getLast? = some (.handle 9) ∧
    ∃ rows, Filed (after exMechs exCrypto exOracle [] tr) 7 rows CKO_SECRET_KEY CKK_AES ∧ (CKA_VALUE, .blob exKeyBytes) ∈ rows := by
  refine ⟨exCopyClass, ?_, by decide +kernel, exFiled exCopyClass 2, ⟨⟨2, ?_⟩, ?_, ?_⟩, ?_⟩
  · intro p hp
    simp only [exCopyClass, exC27In, exStart, List.cons_append, List.nil_append, List.mem_cons, List.not_mem_nil, or_false] at hp
    rcases hp with rfl | rfl | rfl | rfl | rfl | rfl | rfl | rfl | rfl
    all_goals first | trivial | exact exConf_apart
  · have : AMap.get (dbAt (exRun exCopyClass) 7).objs 2 = some (exFiled exCopyClass 2) := by decide +kernel
    exact AMap.get_mem this
  · decide +kernel
  · decide +kernel
  · decide +kernel

/-- A DH private key, sensitive as by default. -/
def exDhStored : Trace := exC27In ++
  [(exEnv 7, .sess 1 (.createObject [.ofUlong CKA_CLASS CKO_PRIVATE_KEY, .ofUlong CKA_KEY_TYPE CKK_DH, .ofBool CKA_TOKEN true,
    .ofBool CKA_SENSITIVE true, .ofBool CKA_EXTRACTABLE false, .mk' CKA_PRIME [23], .mk' CKA_BASE [5], .mk' CKA_VALUE [6]]))]

set_option maxRecDepth 20000 in
/-- The value of a sensitive, unextractable DH private key is stored in the clear (`src/ffdh.rs:193-196`). -/
theorem C30_dh_violation : ∃ tr : Trace, (∀ p ∈ tr, noMerge p.2 ∧ plainCall p.2) ∧
    (outs exMechs exCrypto exOracle (St.init []) tr).getLast? = some (.handle 8) ∧
    ∃ rows, Filed (after exMechs exCrypto exOracle [] tr) 7 rows CKO_PRIVATE_KEY CKK_DH ∧ (CKA_SENSITIVE, .int 1) ∈ rows ∧
      (CKA_VALUE, .blob [6]) ∈ rows := by
  refine ⟨exDhStored, ?_, by decide +kernel, exFiled exDhStored 1, ⟨⟨1, ?_⟩, ?_, ?_⟩, ?_, ?_⟩
  · intro p hp
    simp only [exDhStored, exC27In, exStart, List.cons_append, List.nil_append, List.mem_cons, List.not_mem_nil, or_false] at hp
    rcases hp with rfl | rfl | rfl | rfl | rfl | rfl | rfl | rfl
    all_goals first
      | exact ⟨trivial, trivial⟩
      | exact ⟨exConf_apart, trivial⟩
  · have : AMap.get (dbAt (exRun exDhStored) 7).objs 1 = some (exFiled exDhStored 1) := by decide +kernel
    exact AMap.get_mem this
  · decide +kernel
  · decide +kernel
  · decide +kernel
  · decide +kernel

set_option maxRecDepth 20000 in
/-- After a logout that failed nobody is logged in, and the token still holds the key (`src/token.rs:414-428`, `src/storage/format.rs:523-528`). -/
theorem C30_logout_violation : ∃ (tr : Trace) (k : Bytes), (notes exMechs exCrypto exOracle [] tr).who 7 = none ∧
    holdsKey (after exMechs exCrypto exOracle [] tr) 7 k := by
  refine ⟨exBadLogout, exHeldKey, by decide +kernel, ?_⟩
  have h : (AMap.get (exRun exBadLogout).slots 7).map (fun sl : Slot => sl.token.store.aci.key) = some (some exHeldKey) := by decide +kernel
  exact of_map h

end Kry
