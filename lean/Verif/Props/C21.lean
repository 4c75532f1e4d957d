import Verif.Proofs.Search
import Verif.Props.C10

/-!
# C21: what a search finds

`C21_partial` says, for any history, template, and any continuation with any other calls and any sizes of
C_FindObjects, what the answers of C_FindObjects are: the session objects that match by value, and the stored
objects whose columns match (only non-private ones while nobody is logged in), each once.

Missing from the full property: attributes that are stored encrypted never match
(`C21_encrypted_violation`), and an object may be listed twice when a session object was given the
CKA_UNIQUE_ID of a stored one (`C21_twice_violation`).
-/

namespace Kry

open Spec

section
variable (M : Mechs) (C : Crypto) (O : Oracle)

/-- A search that C_FindObjectsInit began on session `h` lists the matching objects — each of them, and
nothing else — and whatever C_FindObjects answers during any continuation that does not end the search is, in
order, the beginning of that list; the next C_FindObjects answers the next `m` of it. -/
theorem C21_partial (d : List (Nat × Db)) (hd : ∀ p ∈ d, TblOk p.2.objs) (tr₁ tr₂ : Trace) (e : Env)
    (i h : Nat) (tm : Template) (ho : onSlot M C O (after M C O d tr₁) h i)
    (hf : (step M C O e (after M C O d tr₁) (.sess h (.findInit tm))).1 = .ok)
    (hc : ∀ p ∈ tr₂, endsSearch i h p.2 = false) :
    ∃ L rest,
      (∀ n, n ∈ L ↔ foundSession (after M C O d tr₁) i tm n ∨
        ∃ u, foundStored (after M C O d tr₁) i tm u ∧
          standsFor (step M C O e (after M C O d tr₁) (.sess h (.findInit tm))).2 i n u) ∧
      (∀ u, foundStored (after M C O d tr₁) i tm u → ∃ n ∈ L,
        standsFor (step M C O e (after M C O d tr₁) (.sess h (.findInit tm))).2 i n u) ∧
      (apart (after M C O d tr₁) i → L.Nodup) ∧
      L = found M C O h (step M C O e (after M C O d tr₁) (.sess h (.findInit tm))).2 tr₂ ++ rest ∧
      ∀ e' m l, (step M C O e' (run M C O (step M C O e (after M C O d tr₁) (.sess h (.findInit tm))).2 tr₂)
        (.sess h (.find m))).1 = .handles l → l = rest.take m := by
  have hi : Inv (after M C O d tr₁) := inv_reach M O d tr₁
  have hv : HInv (after M C O d tr₁) := hinv_reach M O d tr₁
  have ht : TInv (after M C O d tr₁) := tinv_reach M O hd tr₁
  generalize after M C O d tr₁ = s at *
  have hm := (onSlot_iff hi).1 ho
  have hi1 := inv_step (C := C) M O e s (.sess h (.findInit tm)) hi
  obtain ⟨sl, x, hg, hs, hx⟩ := getSession_live hi hm
  simp only [step, hg, sessStep] at hf hi1 ⊢
  split at hf
  · cases hf
  rename_i hin
  rw [if_neg hin] at hi1 ⊢
  unfold Session.newSearch at hf hi1 ⊢
  cases hsr : x.search with
  | some l => simp only [hsr] at hf; cases hf
  | none =>
    simp only [hsr] at hf hi1 ⊢
    have ex := fun l => searchObjects_exact (e := e) (t := sl.token) (tm := tm) (l := l) (hv i sl hs).ok
      (ht.slots i sl hs)
    generalize sl.token.searchObjects e tm = p at hf hi1 ex ⊢
    obtain ⟨r, t1⟩ := p
    cases r with
    | error r => cases hf
    | ok L =>
      obtain ⟨x1, x2, x3⟩ := ex L rfl
      simp only at hi1 x1 x2 x3 ⊢
      have st1 : AMap.get (s.setSlot i ⟨t1, AMap.modify sl.sessions h fun _ =>
          { x with search := some L, login := .notRequired }⟩).slots i = some ⟨t1, AMap.modify sl.sessions h fun _ =>
          { x with search := some L, login := .notRequired }⟩ := by
        rw [get_setSlot hs, if_pos rfl]
      obtain ⟨sl', x', l', r1, r2, r3, r4⟩ := run_took (M := M) (C := C) (O := O) tr₂ hi1 st1
        (h := h) (x := { x with search := some L, login := .notRequired }) (l := L)
        (by simp only [AMap.get_modify, if_true, hx]; rfl) rfl hc
      have hi2 := inv_run (C := C) M O tr₂ _ hi1
      have fs : ∀ u, foundStored s i tm u ↔ ∃ id rows o, (id, rows) ∈ sl.token.store.db.objs ∧
          AMap.get rows CKA_UNIQUE_ID = some (.text u) ∧ validUtf8 u = true ∧ internalUid u = false ∧
          (∀ c ∈ tm, rowIs rows c) ∧ (sl.token.logged = none → AMap.get rows CKA_PRIVATE = some (.int 0)) ∧
          decodeRows (Obj.new CK_UNAVAILABLE_INFORMATION) rows = .ok o ∧ mayAsk o tm := by
        intro u
        constructor
        · rintro ⟨sl0, id, rows, o, h0, h1⟩
          rw [hs] at h0; injection h0 with h0; subst h0
          exact ⟨id, rows, o, h1⟩
        · rintro ⟨id, rows, o, h1⟩
          exact ⟨sl, id, rows, o, hs, h1⟩
      have stf : ∀ n u, standsFor (s.setSlot i ⟨t1, AMap.modify sl.sessions h fun _ =>
          { x with search := some L, login := .notRequired }⟩) i n u ↔ t1.handles.get n = some u := by
        intro n u
        unfold standsFor
        rw [st1]
        constructor
        · rintro ⟨_, h0, h1⟩; injection h0 with h0; subst h0; exact h1
        · intro h1; exact ⟨_, rfl, h1⟩
      have so : ∀ n, sessionObj s i n = AMap.get sl.token.sess n := by
        intro n; unfold sessionObj; rw [hs]
      refine ⟨L, l', fun n => ?_, fun u hu => ?_, fun hap => ?_, r4, fun e' m l hl => ?_⟩
      · rw [x1 n]
        refine or_congr ?_ ?_
        · unfold foundSession; rw [so]
        · constructor
          · rintro ⟨u, id, rows, o, h1, h2⟩
            exact ⟨u, (fs u).2 ⟨id, rows, o, h2⟩, (stf n u).2 h1⟩
          · rintro ⟨u, h2, h1⟩
            obtain ⟨id, rows, o, h2⟩ := (fs u).1 h2
            exact ⟨u, id, rows, o, (stf n u).1 h1, h2⟩
      · obtain ⟨id, rows, o, h1, h2, h3, h4, h5, h6, h7, h8⟩ := (fs u).1 hu
        obtain ⟨n, hn, hgn⟩ := x3 u id rows o h1 h2 h3 h4 h5 h6 h7 h8
        exact ⟨n, hn, (stf n u).2 hgn⟩
      · exact x2 fun n o u id rows h1 h2 h3 => hap n o u sl id rows ((so n).trans h1) h2 hs h3
      · have hm2 := (hi2.link h i).2 ⟨sl', x', r1, r2⟩
        obtain ⟨sl2, y, g1, g2, g3⟩ := getSession_live hi2 hm2
        rw [r1] at g2; injection g2 with g2; subst g2
        rw [r2] at g3; injection g3 with g3; subst g3
        simp only [g1, Session.findObjects, r3] at hl
        cases hk : x'.checkLogin with
        | error q => simp only [hk] at hl; cases hl
        | ok _ => simp only [hk] at hl; injection hl with hl; exact hl.symm

end

/-! ## A concrete search

Two stored data objects and a session object; the search is read one handle at a time, with a
destruction and a new object in between. -/

def exSearch : Trace := exTwo ++ [(exEnv 10, .sess 1 (.createObject (exSesData 3)))]

def exAsk : Template := [.ofUlong CKA_CLASS CKO_DATA]

def exPieces : Trace :=
  [(exEnv 21, .sess 1 (.find 1)), (exEnv 22, .sess 1 (.destroyObject 9)),
   (exEnv 23, .sess 1 (.createObject (exSesData 4))), (exEnv 24, .sess 1 (.find 0)), (exEnv 25, .sess 1 (.find 1))]

set_option maxRecDepth 10000 in
theorem exSearch_on : onSlot exMechs exCrypto exOracle (exRun exSearch) 1 7 :=
  ⟨exEnv 0, .rwUser, CKF_RW_SESSION ||| CKF_SERIAL_SESSION, by decide +kernel⟩

set_option maxRecDepth 10000 in
/-- The hypotheses of `C21_partial` are met, and what was found is part of the list. -/
example : (step exMechs exCrypto exOracle (exEnv 20) (exRun exSearch) (.sess 1 (.findInit exAsk))).1 = .ok ∧
    (∀ p ∈ exPieces, endsSearch 7 1 p.2 = false) ∧
    found exMechs exCrypto exOracle 1 (step exMechs exCrypto exOracle (exEnv 20) (exRun exSearch)
      (.sess 1 (.findInit exAsk))).2 exPieces = [10, 8] ∧
    (step exMechs exCrypto exOracle (exEnv 26) (run exMechs exCrypto exOracle (step exMechs exCrypto exOracle
      (exEnv 20) (exRun exSearch) (.sess 1 (.findInit exAsk))).2 exPieces) (.sess 1 (.find 5))).1 =
        .handles [9] := by
  refine ⟨?_, ?_, ?_, ?_⟩
  all_goals decide +kernel

/-! ## Violations -/

/-- A generic secret token key whose value may be read by everybody. -/
def exOpenKey : Template :=
  [.ofUlong CKA_CLASS CKO_SECRET_KEY, .ofUlong CKA_KEY_TYPE CKK_GENERIC_SECRET, .ofBool CKA_TOKEN true,
   .ofBool CKA_PRIVATE false, .ofBool CKA_SENSITIVE false, .ofBool CKA_EXTRACTABLE true, .mk' CKA_VALUE [1, 2, 3, 4]]

def exOpen : Trace := exStart ++
  [(exEnv 6, .login 1 CKU_USER exPin), (exEnv 7, .sess 1 (.createObject exOpenKey))]

set_option maxRecDepth 10000 in
/-- The full property is false: the value of a stored secret key, although C_GetAttributeValue tells it, never
matches, because it is compared with the encrypted column (`src/storage/format.rs:425-431`). -/
theorem C21_encrypted_violation : ∃ (M : Mechs) (C : Crypto) (O : Oracle) (s : St) (e e' : Env) (h n : Nat) (v : Bytes),
    reports M C O s h n CKA_VALUE v ∧ (step M C O e s (.sess h (.findInit [.mk' CKA_VALUE v]))).1 = .ok ∧
      (step M C O e' (step M C O e s (.sess h (.findInit [.mk' CKA_VALUE v]))).2 (.sess h (.find 10))).1 =
        .handles [] := by
  refine ⟨exMechs, exCrypto, exOracle, exRun exOpen, exEnv 8, exEnv 9, 1, 8, [1, 2, 3, 4],
    ⟨exEnv 60, ⟨CKA_VALUE, false, 100, []⟩, ⟨CKA_VALUE, false, 4, [1, 2, 3, 4]⟩, rfl, rfl, ?_, ?_⟩, ?_, ?_⟩
  all_goals decide +kernel

/-- A key with a chosen unique id: that of the first object of `exTwo`. -/
def exForged : Template := [.ofUlong CKA_VALUE_LEN 16, .mk' CKA_UNIQUE_ID [97, 104, 97], .ofBool CKA_DESTROYABLE true]

/-- Two objects stored; the process starts again and generates a session key with the id of one of them. -/
def exTwice : Trace := exTwo ++
  [(exEnv 9, .finalize), (exEnv 10, .initialize [(7, ⟨[CKM_AES_KEY_GEN], none, none⟩)]),
   (exEnv 11, .openSession 7 (CKF_RW_SESSION ||| CKF_SERIAL_SESSION)), (exEnv 12, .login 1 CKU_USER exPin),
   (exEnv 13, .op 1 (.generateKey CKM_AES_KEY_GEN [] exForged)), (exEnv 14, .sess 1 (.findInit [.ofBool CKA_DESTROYABLE true]))]

set_option maxRecDepth 10000 in
/-- The full property is false: one handle is answered twice, for the session key and for the stored object
that has the same CKA_UNIQUE_ID (`src/token.rs:901-940`). -/
theorem C21_twice_violation : ∃ (M : Mechs) (C : Crypto) (O : Oracle) (tr : Trace) (e : Env) (h n m : Nat),
    (step M C O e (after M C O [] tr) (.sess h (.find 10))).1 = .handles [n, n, m] := by
  refine ⟨exMechs, exCrypto, exOracle, exTwice, exEnv 15, 1, 7, 8, ?_⟩
  decide +kernel

end Kry
