import Verif.Proofs.Undo
import Verif.Spec.Undo
import Verif.Props.C19

/-!
# C26: key pairs and derived keys come all or not at all

When C_GenerateKeyPair or C_DeriveKey answers an error, whatever failed (a storage operation included), no object exists
that was not there before: `C26_pair_partial`, `C26_derive_partial`.  What is missing is shown to be false: the keys already
made are removed with `destroy_object`, whose result is ignored; so they stay if they may not be destroyed
(`C26_pair_violation`, `C26_derive_violation`) or if that removal fails itself (`C26_fault_violation`).
-/

namespace Kry
open Spec

variable {M : Mechs} {C : Crypto} {O : Oracle}

theorem noNew_refl (s : St) : noNew s s := fun _ => ⟨fun _ _ h => h, fun _ h => h⟩

theorem noNew_setSlot {s : St} {i : Nat} {sl sl' : Slot} (hs : AMap.get s.slots i = some sl)
    (h : Extra C sl.token sl'.token []) : noNew s (s.setSlot i sl') := by
  intro j
  by_cases e : i = j
  · subst e
    refine ⟨fun n o hn => ?_, fun rows hr => ?_⟩
    · unfold sessionObj at hn ⊢
      rw [get_setSlot hs, if_pos rfl] at hn
      rw [hs]
      exact (h.sess n o hn).resolve_right (by simp)
    · obtain ⟨sl2, id, h1, h2⟩ := hr
      rw [get_setSlot hs, if_pos rfl] at h1
      injection h1 with h1
      subst h1
      refine ⟨sl, id, hs, ?_⟩
      rcases h.rows _ h2 with h3 | ⟨n, hn, _⟩
      · exact h3
      · cases hn
  · refine ⟨fun n o hn => ?_, fun rows hr => ?_⟩
    · unfold sessionObj at hn ⊢
      rw [get_setSlot_ne e] at hn
      exact hn
    · obtain ⟨sl2, id, h1, h2⟩ := hr
      rw [get_setSlot_ne e] at h1
      exact ⟨sl2, id, h1, h2⟩

/-- **C26** for C_GenerateKeyPair.  Assumed: the mechanism makes regular objects, the public key may be destroyed, and the
removal of the public key (`e.sub 3`) is not hit by a failure; any other operation may fail. -/
theorem C26_pair_partial (hM : RegularMechs M O) (d : List (Nat × Db)) (hd : ∀ p ∈ d, TblOk p.2.objs) (tr : Trace) (e : Env)
    (h m : Nat) (p : Bytes) (pub priv : Template) (hk : pairsGo M m p pub priv) (hq : quiet (e.sub 3))
    (hr : refusal (step M C O e (after M C O d tr) (.op h (.generatePair m p pub priv))).1 = true) :
    noNew (after M C O d tr) (step M C O e (after M C O d tr) (.op h (.generatePair m p pub priv))).2 := by
  have ht : TInv (after M C O d tr) := tinv_reach M O hd tr
  have hv : HInv (after M C O d tr) := hinv_reach M O d tr
  generalize after M C O d tr = s at *
  cases hg : s.getSession h with
  | error r => simp only [step, hg]; exact noNew_refl s
  | ok y =>
    obtain ⟨i, sl, x⟩ := y
    obtain ⟨_, _, hs, hx⟩ := getSession_ok hg
    simp only [step, hg, opStep] at hr ⊢
    cases hf : fnGenPair M C e h m p pub priv x sl.token with
    | mk r t' =>
      rw [hf] at hr
      cases r with
      | ok l => cases hr
      | error r =>
        simp only
        exact noNew_setSlot hs (genPair_undo hM hq (hv i sl hs).ok (ht.slots i sl hs) hk hf)

/-- **C26** for C_DeriveKey.  Assumed: the mechanism makes regular objects that may be destroyed, in the announced number,
and the removal of the keys already made (`e.sub 5`) is not hit by a failure; any other operation may fail. -/
theorem C26_derive_partial (hM : RegularMechs M O) (d : List (Nat × Db)) (hd : ∀ p ∈ d, TblOk p.2.objs) (tr : Trace) (e : Env)
    (h m key : Nat) (p : Bytes) (tm : Template) (hk : derivesGo M m p tm) (hq : quiet (e.sub 5))
    (hr : refusal (step M C O e (after M C O d tr) (.op h (.derive m p key tm))).1 = true) :
    noNew (after M C O d tr) (step M C O e (after M C O d tr) (.op h (.derive m p key tm))).2 := by
  have ht : TInv (after M C O d tr) := tinv_reach M O hd tr
  have hv : HInv (after M C O d tr) := hinv_reach M O d tr
  generalize after M C O d tr = s at *
  cases hg : s.getSession h with
  | error r => simp only [step, hg]; exact noNew_refl s
  | ok y =>
    obtain ⟨i, sl, x⟩ := y
    obtain ⟨_, _, hs, hx⟩ := getSession_ok hg
    simp only [step, hg, opStep] at hr ⊢
    cases hf : fnDerive M C e h m p key tm x sl.token with
    | mk r t' =>
      rw [hf] at hr
      cases r with
      | ok l => cases hr
      | error r =>
        simp only
        refine noNew_setSlot hs (derive_undo hM hq (hv i sl hs).ok (ht.slots i sl hs) ?_ ?_ hf)
        · intro e k extra l hl o ho
          cases l with
          | nil => cases ho
          | cons o1 os => exact (hk e k extra o1 os hl).1 o ho
        · intro e k extra o os hl hne hmk
          exact (hk e k extra o os hl).2 hne hmk

/-- The other calls that make a key make one object, so have nothing to undo: when they fail, nothing is new. -/
theorem C26_single (hM : RegularMechs M O) (d : List (Nat × Db)) (hd : ∀ p ∈ d, TblOk p.2.objs) (tr : Trace) (e : Env)
    (h m : Nat) (p : Bytes) (tm : Template)
    (hr : refusal (step M C O e (after M C O d tr) (.op h (.generateKey m p tm))).1 = true) :
    noNew (after M C O d tr) (step M C O e (after M C O d tr) (.op h (.generateKey m p tm))).2 := by
  have ht : TInv (after M C O d tr) := tinv_reach M O hd tr
  have hv : HInv (after M C O d tr) := hinv_reach M O d tr
  generalize after M C O d tr = s at *
  cases hg : s.getSession h with
  | error r => simp only [step, hg]; exact noNew_refl s
  | ok y =>
    obtain ⟨i, sl, x⟩ := y
    obtain ⟨_, _, hs, hx⟩ := getSession_ok hg
    have z : Extra C sl.token sl.token [] := .refl (hv i sl hs).ok (ht.slots i sl hs)
    simp only [step, hg, opStep] at hr ⊢
    refine noNew_setSlot (C := C) hs ?_
    show Extra C sl.token (fnGenKey M C e h m p tm x sl.token).2 []
    unfold fnGenKey at hr ⊢
    split at hr
    · exact z
    by_cases h0 : (!sl.token.isInitialized) = true
    · simp only [if_pos h0]; exact z
    simp only [if_neg h0] at hr ⊢
    split at hr
    · exact z
    split at hr
    · exact z
    rename_i o h1
    have z1 := z.insert (e.sub 1) h (zero_fresh o) (regular_fresh (hM.genKey _ _ _ _ _ h1))
    generalize sl.token.insertObject C (e.sub 1) h (fresh o) = y at z1 hr
    obtain ⟨r1, t1⟩ := y
    cases r1 with
    | error r1 => exact z1
    | ok n => cases hr

/-! ## Cases -/

/-- Nothing can be made. -/
def exNoMechs : Mechs := { exMechs with
  genKey := fun _ _ _ _ => .error .mechanismInvalid
  importAttrs := fun _ _ _ => .error .mechanismInvalid }

theorem exNoMechs_regular : RegularMechs exNoMechs exOracle where
  genKey _ _ _ _ _ h := by cases h
  genPair _ _ _ _ _ _ _ h := by cases h
  derive _ _ _ _ _ _ _ h := by cases h
  importAttrs _ _ _ _ h := by cases h
  asym _ _ _ h := by
    injection h with h
    subst h
    intro a ha; cases ha

/-- The two objects of two templates. -/
def exBoth (e : Env) (a b : Template) : Res (Obj × Obj) :=
  match factoriesCreate exOracle (e.sub 0).uid a with
  | .error r => .error r
  | .ok x => match factoriesCreate exOracle (e.sub 1).uid b with
    | .error r => .error r
    | .ok y => .ok (x, y)

/-- Pairs of AES keys that follow the two templates; derivation of one that follows the template and one stored key. -/
def exPairMechs : Mechs := { exNoMechs with
  genPair := fun e _ _ a b => exBoth e (exAesTemplate ++ a) (exAesTemplate ++ b)
  derive := fun e _ _ _ _ tm => match exBoth e (exAesTemplate ++ tm) (exAesTemplate ++ [.ofBool CKA_TOKEN true]) with
    | .error r => .error r
    | .ok (x, y) => .ok [x, y]
  adkCount := fun _ _ => .ok 1 }

theorem exBoth_regular {e : Env} {a b : Template} {x y : Obj} (h : exBoth e a b = .ok (x, y)) : Regular x ∧ Regular y := by
  unfold exBoth at h
  split at h
  · cases h
  rename_i h1
  split at h
  · cases h
  rename_i h2
  injection h with h
  injection h with e1 e2
  subst e1; subst e2
  exact ⟨regular_create exNoMechs_regular h1, regular_create exNoMechs_regular h2⟩

theorem exPair_regular : RegularMechs exPairMechs exOracle where
  genKey _ _ _ _ _ h := by cases h
  genPair _ _ _ _ _ _ _ h := exBoth_regular h
  derive e m q k l tm r h := by
    intro o ho
    simp only [exPairMechs] at h
    split at h
    · cases h
    rename_i x y hx
    obtain ⟨h1, h2⟩ := exBoth_regular hx
    injection h with h
    subst h
    rcases List.mem_cons.1 ho with e | ho
    · rw [e]; exact h1
    · rw [List.mem_singleton.1 ho]; exact h2
  importAttrs _ _ _ _ h := by cases h
  asym := exNoMechs_regular.asym

/-- A token with the three mechanisms; session 1 logged out; a public key that may derive (10). -/
def exPairStart : Trace :=
  [(exEnv 0, .initialize [(7, ⟨[CKM_EC_KEY_PAIR_GEN, CKM_SP800_108_COUNTER_KDF], none, none⟩)]),
   (exEnv 1, .initToken 7 exSoPin none),
   (exEnv 2, .openSession 7 (CKF_RW_SESSION ||| CKF_SERIAL_SESSION)),
   (exEnv 3, .login 1 CKU_SO exSoPin), (exEnv 4, .sess 1 (.initPin exPin)), (exEnv 5, .logout 1),
   (exEnv 6, .sess 1 (.createObject [.ofUlong CKA_CLASS CKO_SECRET_KEY, .ofUlong CKA_KEY_TYPE CKK_GENERIC_SECRET,
     .mk' CKA_VALUE [1, 2, 3], .ofBool CKA_DERIVE true, .ofBool CKA_PRIVATE false]))]

def exPairSt : St := after exPairMechs exCrypto exOracle [] exPairStart

/-- A session public key and a token private key, which a logged-out session cannot have. -/
def exPairCall (pub : Template) : Call :=
  .op 1 (.generatePair CKM_EC_KEY_PAIR_GEN [] (.ofBool CKA_PRIVATE false :: pub) [.ofBool CKA_TOKEN true])

def exDeriveCall (tm : Template) : Call := .op 1 (.derive CKM_SP800_108_COUNTER_KDF [] 8 (.ofBool CKA_PRIVATE false :: tm))

/-- When the public template asks for nothing else, the hypotheses hold of these mechanisms. -/
theorem exPair_go (m : Nat) (p : Bytes) (priv : Template) : pairsGo exPairMechs m p [.ofBool CKA_PRIVATE false] priv := by
  intro e a b h
  have h : exBoth e (exAesTemplate ++ [.ofBool CKA_PRIVATE false]) (exAesTemplate ++ priv) = .ok (a, b) := h
  unfold exBoth at h
  split at h
  · cases h
  rename_i x hx
  split at h
  · cases h
  injection h with h
  injection h with h _
  subst h
  obtain ⟨o, ho, hd⟩ : ∃ o, factoriesCreate exOracle (e.sub 0).uid (exAesTemplate ++ [.ofBool CKA_PRIVATE false]) = .ok o ∧
    o.isDestroyable = true := ⟨_, rfl, rfl⟩
  rw [ho] at hx
  injection hx with hx
  rw [← hx]; exact hd

theorem exDerive_go (p : Bytes) : derivesGo exPairMechs CKM_SP800_108_COUNTER_KDF p [.ofBool CKA_PRIVATE false] := by
  intro e k extra o os h
  obtain ⟨a, ha, hd⟩ : ∃ o, factoriesCreate exOracle (e.sub 0).uid (exAesTemplate ++ [.ofBool CKA_PRIVATE false]) = .ok o ∧
    o.isDestroyable = true := ⟨_, rfl, rfl⟩
  obtain ⟨b, hb, hd'⟩ : ∃ o, factoriesCreate exOracle (e.sub 1).uid (exAesTemplate ++ [.ofBool CKA_TOKEN true]) = .ok o ∧
    o.isDestroyable = true := ⟨_, rfl, rfl⟩
  simp only [exPairMechs, exBoth, ha, hb] at h
  injection h with h
  injection h with h1 h2
  subst h1; subst h2
  refine ⟨fun o' h' => ?_, fun _ _ => ⟨by decide, rfl⟩⟩
  rcases List.mem_cons.1 h' with e | h'
  · rw [e]; exact hd
  · rw [List.mem_singleton.1 h']; exact hd'

set_option maxRecDepth 10000 in
/-- Both calls fail after the first key was inserted, and only the objects that were there before are found. -/
example : (outs exPairMechs exCrypto exOracle (St.init []) (exPairStart ++ [
    (exEnv 7, exPairCall []), (exEnv 8, exDeriveCall []),
    (exEnv 12, .sess 1 (.findInit [])), (exEnv 13, .sess 1 (.find 20)),
    (exEnv 14, .op 1 (.generatePair CKM_EC_KEY_PAIR_GEN [] [] []))])).drop 6 =
  [.handle 8, .err .userNotLoggedIn, .err .userNotLoggedIn, .ok, .handles [8, 7, 6, 5, 4, 3, 2, 1], .handles [11, 12]] := by
  decide +kernel

set_option maxRecDepth 10000 in
example : refusal (step exPairMechs exCrypto exOracle (exEnv 7) exPairSt (exPairCall [])).1 = true ∧
    refusal (step exPairMechs exCrypto exOracle (exEnv 7) exPairSt (exDeriveCall [])).1 = true := by decide +kernel

/-! ## What does not hold -/

/-- Something new. -/
theorem new_of {s s' : St} {i n : Nat} (h : (sessionObj s' i n).isSome = true) (h' : (sessionObj s i n).isSome = false) :
    ¬ noNew s s' := by
  intro hn
  cases hc : sessionObj s' i n with
  | none => rw [hc] at h; cases h
  | some o =>
    rw [(hn i).1 n o hc] at h'
    cases h'

set_option maxRecDepth 10000 in
/-- **Counterexample**: C_GenerateKeyPair fails because the private key cannot be stored, and the public key, which has
CKA_DESTROYABLE false, stays (`src/fns/keymgmt.rs:193-206`). -/
theorem C26_pair_violation : ∃ (tr : Trace) (e : Env) (h m : Nat) (p : Bytes) (pub priv : Template), quiet e ∧
    refusal (step exPairMechs exCrypto exOracle e (after exPairMechs exCrypto exOracle [] tr) (.op h (.generatePair m p pub priv))).1 = true ∧
    ¬ noNew (after exPairMechs exCrypto exOracle [] tr)
      (step exPairMechs exCrypto exOracle e (after exPairMechs exCrypto exOracle [] tr) (.op h (.generatePair m p pub priv))).2 :=
  ⟨exPairStart, exEnv 7, 1, CKM_EC_KEY_PAIR_GEN, [], [.ofBool CKA_PRIVATE false, .ofBool CKA_DESTROYABLE false],
    [.ofBool CKA_TOKEN true], fun _ => rfl, by decide +kernel, new_of (i := 7) (n := 9) (by decide +kernel) (by decide +kernel)⟩

set_option maxRecDepth 10000 in
/-- **Counterexample**: C_DeriveKey fails because the additional key cannot be stored, and the main key, which has
CKA_DESTROYABLE false, stays (`src/fns/keymgmt.rs:689-703`). -/
theorem C26_derive_violation : ∃ (tr : Trace) (e : Env) (h m key : Nat) (p : Bytes) (tm : Template), quiet e ∧
    refusal (step exPairMechs exCrypto exOracle e (after exPairMechs exCrypto exOracle [] tr) (.op h (.derive m p key tm))).1 = true ∧
    ¬ noNew (after exPairMechs exCrypto exOracle [] tr)
      (step exPairMechs exCrypto exOracle e (after exPairMechs exCrypto exOracle [] tr) (.op h (.derive m p key tm))).2 :=
  ⟨exPairStart, exEnv 7, 1, CKM_SP800_108_COUNTER_KDF, 8, [], [.ofBool CKA_PRIVATE false, .ofBool CKA_DESTROYABLE false],
    fun _ => rfl, by decide +kernel, new_of (i := 7) (n := 9) (by decide +kernel) (by decide +kernel)⟩

/-- Slot 7 stores this many objects. -/
def storedCount (s : St) : Nat := match AMap.get s.slots 7 with
  | some sl => sl.token.store.db.objs.length
  | none => 0

/-- A failure of the second and all later operations on the storage. -/
def exLate (n : Nat) : Env :=
  { exEnv n with fault := fun p => if p.take 1 = [2] ∨ p.take 1 = [3] then some .deviceError else none }

def exPairIn : Trace := exPairStart ++ [(exEnv 8, .login 1 CKU_USER exPin)]

theorem new_stored {s s' : St} (h0 : storedCount s = 0) (h1 : storedCount s' = 1) : ¬ noNew s s' := by
  intro hn
  unfold storedCount at h0 h1
  split at h1
  · rename_i sl hs
    match ho : sl.token.store.db.objs with
    | [] => rw [ho] at h1; cases h1
    | g :: l =>
      obtain ⟨sl2, id, h3, h4⟩ := (hn 7).2 g.2 ⟨sl, g.1, hs, by rw [ho]; exact List.mem_cons_self ..⟩
      rw [h3] at h0
      simp only at h0
      rw [List.eq_nil_of_length_eq_zero h0] at h4
      cases h4
  · cases h1

set_option maxRecDepth 10000 in
/-- **Counterexample**: the storage fails while the private key is stored and still fails while the public key is removed:
the call fails and the public key stays in the storage. -/
theorem C26_fault_violation : ∃ (tr : Trace) (e : Env) (h m : Nat) (p : Bytes) (pub priv : Template),
    pairsGo exPairMechs m p pub priv ∧
    refusal (step exPairMechs exCrypto exOracle e (after exPairMechs exCrypto exOracle [] tr) (.op h (.generatePair m p pub priv))).1 = true ∧
    ¬ noNew (after exPairMechs exCrypto exOracle [] tr)
      (step exPairMechs exCrypto exOracle e (after exPairMechs exCrypto exOracle [] tr) (.op h (.generatePair m p pub priv))).2 := by
  refine ⟨exPairIn, exLate 9, 1, CKM_EC_KEY_PAIR_GEN, [], [.ofBool CKA_TOKEN true], [.ofBool CKA_TOKEN true], ?_,
    by decide +kernel, new_stored (by decide +kernel) (by decide +kernel)⟩
  intro e a b h
  obtain ⟨x, ha, hd⟩ : ∃ o, factoriesCreate exOracle (e.sub 0).uid (exAesTemplate ++ [.ofBool CKA_TOKEN true]) = .ok o ∧
    o.isDestroyable = true := ⟨_, rfl, rfl⟩
  obtain ⟨y, hb, hd'⟩ : ∃ o, factoriesCreate exOracle (e.sub 1).uid (exAesTemplate ++ [.ofBool CKA_TOKEN true]) = .ok o ∧
    o.isDestroyable = true := ⟨_, rfl, rfl⟩
  simp only [exPairMechs, exBoth, ha, hb] at h
  injection h with h
  injection h with h _
  rw [← h]; exact hd

end Kry
