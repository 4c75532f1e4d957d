import Verif.Props.C21

/-!
# C12: private objects while nobody is logged in

For a private token object (`Spec.privateStored`), while nobody is logged in: every call that works on its
handle except C_GetObjectSize is refused and changes nothing (`C12_use_partial`), also when the handle is inside a
key-derivation parameter (`C12_derive`); no search begun then answers its handle (`C12_find`), and no creating
call does (`C12_made`).

Missing from the full property, each shown to be a violation: C_GetObjectSize answers
(`C12_size_violation`); private *session* objects can be made and used by everybody
(`C12_session_violation`); operations (`C12_operation_violation`) and searches
(`C12_search_violation`) begun before C_Logout go on.
-/

namespace Kry

open Spec

section
variable {M : Mechs} {C : Crypto} {O : Oracle}

/-- Looking up a private stored object. -/
theorem priv_fetch {t : Token} {e : Env} {n : Nat} {u : Bytes} {id : Nat} {rows : List (Nat × DbVal)} {v : Int}
    {hints : List Nat} {o : Obj} (ok : TblOk t.store.db.objs) (hu : t.handles.get n = some u)
    (hm : (id, rows) ∈ t.store.db.objs) (hr : AMap.get rows CKA_UNIQUE_ID = some (.text u))
    (ht : AMap.get rows CKA_TOKEN = some (.int v)) (hv : v ≠ 0)
    (hp : AMap.get rows CKA_PRIVATE ≠ some (.int 0))
    (hh : hints = [] ∨ CKA_TOKEN ∈ hints ∧ CKA_PRIVATE ∈ hints)
    (hf : t.store.fetch C e t.handles n hints = .ok o) : o.isToken = true ∧ o.isPrivate = true := by
  obtain ⟨u', rows', h1, h2, h3, _, h4⟩ := fetch_row ok hf
  rw [hu] at h1; injection h1 with h1; subst h1
  have hrow : rowsOf t.store.db.objs u = some rows :=
    (rowsOf_iff ok).2 ⟨id, hm, (hasRow_get (ok.rows _ hm)).2 hr⟩
  rw [hrow] at h2; injection h2 with h2; subst h2
  have tok := h4 CKA_TOKEN plain_token (hh.elim .inr fun h => .inl (mem_fetchHints h.1))
  have prv := h4 CKA_PRIVATE plain_private (hh.elim .inr fun h => .inl (mem_fetchHints h.2))
  have kt : attrKind CKA_TOKEN = some .bool := by decide +kernel
  have kp : attrKind CKA_PRIVATE = some .bool := by decide +kernel
  constructor
  · rw [ht] at tok
    obtain ⟨a, ha, hfa⟩ := tok
    unfold decodeRow at ha
    rw [kt] at ha
    injection ha with ha
    simp [Obj.isToken, Obj.boolOr, hfa, ← ha, Attr.ofBool, Attr.toBool, hv]
  · unfold Obj.isPrivate Obj.boolOr
    cases hpr : AMap.get rows CKA_PRIVATE with
    | none => rw [hpr] at prv; simp only at prv; rw [prv]
    | some w =>
      rw [hpr] at prv
      obtain ⟨a, ha, hfa⟩ := prv
      unfold decodeRow at ha
      rw [kp] at ha
      cases w with
      | int k =>
        injection ha with ha
        have hk : k ≠ 0 := by intro h; subst h; exact hp hpr
        simp [hfa, ← ha, Attr.ofBool, Attr.toBool, hk]
      | text _ => cases ha
      | blob _ => cases ha

structure Hidden (C : Crypto) (t : Token) (n : Nat) : Prop where
  byHandle : ∀ e, ∃ r, t.getObjectByHandle C e n = .error r
  copy : ∀ e k tm, ∃ r, t.copyObject C e k n tm = (.error r, t)
  attrs : ∀ e tm, ∃ r, t.getObjectAttrs C e n tm = (.error r, tm)

theorem hidden_of {s : St} {i n : Nat} {sl : Slot} (ht : TInv s) (hs : AMap.get s.slots i = some sl)
    (hp : privateStored s i n) (hl : sl.token.logged = none) : Hidden C sl.token n := by
  obtain ⟨sl', u, id, rows, v, h0, h1, h2, h3, h4, h5, h6, h7⟩ := hp
  rw [hs] at h0; injection h0 with h0; subst h0
  have ok := ht.slots i sl hs
  have hl : sl.token.loggedIn = false := by simp [Token.loggedIn, hl]
  refine ⟨fun e => ?_, fun e k tm => ?_, fun e tm => ?_⟩
  · unfold Token.getObjectByHandle
    simp only [h1]
    cases hf : sl.token.store.fetch C e sl.token.handles n [] with
    | error r => exact ⟨r, rfl⟩
    | ok o =>
      obtain ⟨a, b⟩ := priv_fetch ok h2 h3 h4 h5 h6 h7 (.inl rfl) hf
      simp only [hl, a, b]
      exact ⟨_, rfl⟩
  · unfold Token.copyObject
    simp only [h1]
    cases hf : sl.token.store.fetch C (e.sub 0) sl.token.handles n [] with
    | error r => exact ⟨r, rfl⟩
    | ok o =>
      obtain ⟨a, b⟩ := priv_fetch ok h2 h3 h4 h5 h6 h7 (.inl rfl) hf
      simp only [hl, b]
      exact ⟨_, rfl⟩
  · unfold Token.getObjectAttrs
    simp only [h1, hl]
    cases hf : sl.token.store.fetch C e sl.token.handles n
        (tm.map OutAttr.typ ++ if false = true then [] else [CKA_TOKEN, CKA_PRIVATE]) with
    | error r => exact ⟨r, rfl⟩
    | ok o =>
      obtain ⟨a, b⟩ := priv_fetch ok h2 h3 h4 h5 h6 h7 (.inr (by simp)) hf
      simp only [a, b]
      exact ⟨_, rfl⟩

theorem sess_hidden {e : Env} {h n : Nat} {c : SCall} {x : Session} {t : Token} (no : Hidden C t n)
    (hn : n ∈ worksOn (.sess h c)) :
    refusal (sessStep C O e h c x t).1 = true ∧ (sessStep C O e h c x t).2 = (x, t) ∧
      ∀ q, c = .getAttr n q → ∃ r, (sessStep C O e h c x t).1 = .attrs (.error r) q ∨
        (sessStep C O e h c x t).1 = .err r := by
  have hby : ∀ e', ∃ r, t.getObjectByHandle C e' n = .error r := no.byHandle
  cases c <;> simp only [worksOn, names, List.mem_singleton, List.not_mem_nil] at hn <;> subst hn <;>
    simp only [sessStep]
  case copyObject tm =>
    have : ∃ r, fnCopy C e h x t n tm = (.error r, t) := by
      unfold fnCopy
      split
      · exact ⟨_, rfl⟩
      · split
        · exact ⟨_, rfl⟩
        · exact no.copy _ _ _
    obtain ⟨r, hr⟩ := this
    rw [hr]; exact ⟨rfl, rfl, fun q h => by cases h⟩
  case destroyObject =>
    have : ∃ r, fnDestroy C e x t n = (.error r, t) := by
      unfold fnDestroy
      split
      · exact ⟨_, rfl⟩
      · obtain ⟨r, hr⟩ := hby (e.sub 0)
        rw [hr]; exact ⟨_, rfl⟩
    obtain ⟨r, hr⟩ := this
    rw [hr]; exact ⟨rfl, rfl, fun q h => by cases h⟩
  case getAttr q =>
    split
    · exact ⟨rfl, rfl, fun q h => ⟨_, .inr rfl⟩⟩
    · obtain ⟨r, hr⟩ := no.attrs e q
      rw [hr]; exact ⟨rfl, rfl, fun q h => by injection h with _ h; subst h; exact ⟨r, .inl rfl⟩⟩
  case setAttr tm =>
    have : ∃ r, fnSetAttr C e x t n tm = (.error r, t) := by
      unfold fnSetAttr
      split
      · exact ⟨_, rfl⟩
      · obtain ⟨r, hr⟩ := hby (e.sub 0)
        rw [hr]; exact ⟨_, rfl⟩
    obtain ⟨r, hr⟩ := this
    rw [hr]; exact ⟨rfl, rfl, fun q h => by cases h⟩

theorem fetchAll_hidden {t : Token} {n : Nat} (hby : ∀ e, ∃ r, t.getObjectByHandle C e n = .error r) (hs : List Nat)
    (hn : n ∈ hs) (e : Env) (i : Nat) : ∃ r, fetchAll C e t hs i = .error r := by
  induction hs generalizing i with
  | nil => cases hn
  | cons h hs ih =>
    unfold fetchAll
    rcases List.mem_cons.1 hn with e1 | e1
    · subst e1
      obtain ⟨r, hr⟩ := hby (e.sub i)
      rw [hr]; exact ⟨r, rfl⟩
    · cases t.getObjectByHandle C (e.sub i) h with
      | error r => exact ⟨r, rfl⟩
      | ok o =>
        obtain ⟨r, hr⟩ := ih e1 (i + 1)
        simp only [hr]; exact ⟨r, rfl⟩

end

section
variable (M : Mechs) (C : Crypto) (O : Oracle)

/-- While nobody is logged in, any call on a session of the slot that works on a private token object, other
than C_GetObjectSize, is refused and changes nothing at all; C_GetAttributeValue in particular leaves
the application's buffers as they are.  Missing from the full property: C_GetObjectSize, session objects, and
what was begun before C_Logout (violations below). -/
theorem C12_use_partial (d : List (Nat × Db)) (hd : ∀ p ∈ d, TblOk p.2.objs) (tr : Trace) (e : Env) (c : Call)
    (i n : Nat) (ho : onSlot M C O (after M C O d tr) (caller c) i) (hl : loggedOut (after M C O d tr) i)
    (hp : privateStored (after M C O d tr) i n) (hn : n ∈ worksOn c) :
    refusal (step M C O e (after M C O d tr) c).1 = true ∧ (step M C O e (after M C O d tr) c).2 = after M C O d tr ∧
      ∀ h q, c = .sess h (.getAttr n q) → ∃ r, (step M C O e (after M C O d tr) c).1 = .attrs (.error r) q ∨
        (step M C O e (after M C O d tr) c).1 = .err r := by
  have hi : Inv (after M C O d tr) := inv_reach M O d tr
  have ht : TInv (after M C O d tr) := tinv_reach M O hd tr
  generalize after M C O d tr = s at *
  obtain ⟨sl, x, hg, hs, hx⟩ := getSession_live hi ((onSlot_iff hi).1 ho)
  have no := hidden_of (C := C) ht hs hp (hl sl hs)
  have hn' : n ∈ names c := by
    unfold worksOn at hn
    split at hn
    · cases hn
    · exact hn
  rcases names_caller hn' with ⟨h, c', rfl⟩ | ⟨h, c', rfl⟩
  · have hg : s.getSession h = .ok (i, sl, x) := hg
    have hx : AMap.get sl.sessions h = some x := hx
    obtain ⟨h1, h2, h3⟩ := sess_hidden (C := C) (O := O) (e := e) (x := x) no hn
    simp only [step, hg]
    refine ⟨h1, ?_, fun h' q he => ?_⟩
    · simp only [h2]; exact setSlot_same hi hs hx
    · injection he with _ he
      exact h3 q he
  · have hg : s.getSession h = .ok (i, sl, x) := hg
    have hx : AMap.get sl.sessions h = some x := hx
    obtain ⟨h1, h2⟩ := op_refused (C := C) (M := M) (e := e) (x := x) no.byHandle hn'
    simp only [step, hg]
    refine ⟨h1, ?_, fun h' q he => by cases he⟩
    simp only [h2]; exact setSlot_same hi hs hx

/-- The same for a handle inside the parameter of a key derivation. -/
theorem C12_derive (d : List (Nat × Db)) (hd : ∀ p ∈ d, TblOk p.2.objs) (tr : Trace) (e : Env) (h m key : Nat)
    (q : Bytes) (tm : Template) (hs : List Nat)
    (i n : Nat) (ho : onSlot M C O (after M C O d tr) h i) (hl : loggedOut (after M C O d tr) i)
    (hp : privateStored (after M C O d tr) i n) (hh : M.deriveHandles m q = .ok hs) (hn : n ∈ hs) :
    refusal (step M C O e (after M C O d tr) (.op h (.derive m q key tm))).1 = true ∧
      (step M C O e (after M C O d tr) (.op h (.derive m q key tm))).2 = after M C O d tr := by
  have hi : Inv (after M C O d tr) := inv_reach M O d tr
  have ht : TInv (after M C O d tr) := tinv_reach M O hd tr
  generalize after M C O d tr = s at *
  obtain ⟨sl, x, hg, hsl, hx⟩ := getSession_live hi ((onSlot_iff hi).1 ho)
  have no := hidden_of (C := C) ht hsl hp (hl sl hsl)
  have : ∃ r, fnDerive M C e h m q key tm x sl.token = (.error r, sl.token) := by
    obtain ⟨r, hr⟩ := fetchAll_hidden no.byHandle hs hn (e.sub 1) 0
    unfold fnDerive
    simp only [hh, hr]
    repeat' split
    all_goals exact ⟨_, rfl⟩
  obtain ⟨r, hr⟩ := this
  simp only [step, hg, opStep, hr]
  exact ⟨rfl, setSlot_same hi hsl hx⟩

/-- A search begun while nobody is logged in never answers the handle of a private token object, even if
somebody logs in before it is read. -/
theorem C12_find (d : List (Nat × Db)) (hd : ∀ p ∈ d, TblOk p.2.objs) (tr₁ tr₂ : Trace) (e : Env)
    (i h n : Nat) (tm : Template) (ho : onSlot M C O (after M C O d tr₁) h i)
    (hl : loggedOut (after M C O d tr₁) i) (hp : privateStored (after M C O d tr₁) i n)
    (hf : (step M C O e (after M C O d tr₁) (.sess h (.findInit tm))).1 = .ok)
    (hc : ∀ p ∈ tr₂, endsSearch i h p.2 = false) :
    n ∉ found M C O h (step M C O e (after M C O d tr₁) (.sess h (.findInit tm))).2 tr₂ := by
  obtain ⟨L, rest, h1, _, _, h4, _⟩ := C21_partial M C O d hd tr₁ tr₂ e i h tm ho hf hc
  have hi : Inv (after M C O d tr₁) := inv_reach M O d tr₁
  have hv : HInv (after M C O d tr₁) := hinv_reach M O d tr₁
  have ht : TInv (after M C O d tr₁) := tinv_reach M O hd tr₁
  generalize after M C O d tr₁ = s at *
  intro hn
  obtain ⟨sl, u, id, rows, v, p0, p1, p2, p3, p4, p5, p6, p7⟩ := hp
  rcases (h1 n).1 (by rw [h4]; exact List.mem_append_left _ hn) with ⟨o, ho', _⟩ | ⟨u', hst, hfor⟩
  · unfold sessionObj at ho'
    rw [p0] at ho'
    simp only [p1] at ho'
    cases ho'
  · obtain ⟨sl1, s1, go⟩ := step_go (M := M) (C := C) (O := O) (e := e) (c := .sess h (.findInit tm)) hi p0 rfl
    obtain ⟨ok', st⟩ := go (hv i sl p0).ok
    have hkeep := st.hs.keep n u p2 (by intro h; cases h)
    obtain ⟨sl2, q1, q2⟩ := hfor
    rw [s1] at q1; injection q1 with q1; subst q1
    rw [hkeep] at q2; injection q2 with q2; subst q2
    obtain ⟨sl3, id', rows', o', r0, r1, r2, _, _, _, r6, _⟩ := hst
    rw [p0] at r0; injection r0 with r0; subst r0
    have ok := ht.slots i sl p0
    have := ok.uids _ p3 _ r1 u ((hasRow_get (ok.rows _ p3)).2 p4) ((hasRow_get (ok.rows _ r1)).2 r2)
    injection this with _ this
    subst this
    exact p7 (r6 (hl sl p0))

/-- No creating call answers the handle of an existing object, on a token configured without
de-duplication (with it, C_CreateObject may answer an existing object, C44). -/
theorem C12_made (d : List (Nat × Db)) (tr : Trace) (e : Env) (c : Call) (i n : Nat)
    (ho : onSlot M C O (after M C O d tr) (caller c) i)
    (hp : privateStored (after M C O d tr) i n) (hm : makes c = true)
    (hdd : ∀ sl, AMap.get (after M C O d tr).slots i = some sl → sl.token.cfg.dedup = none) :
    n ∉ gives (step M C O e (after M C O d tr) c).1 := by
  have hi : Inv (after M C O d tr) := inv_reach M O d tr
  have hv : HInv (after M C O d tr) := hinv_reach M O d tr
  generalize after M C O d tr = s at *
  obtain ⟨sl, u, id, rows, v, p0, p1, p2, _⟩ := hp
  have hm2 := (onSlot_iff hi).1 ho
  have hcl : calm i c = true := by cases c <;> first | rfl | cases hm
  have h0 : caller c ≠ 0 := by
    intro h
    have := (hi.bound _ _ hm2)
    omega
  obtain ⟨sl', hs', _⟩ := step_go (M := M) (C := C) (O := O) (e := e) hi p0 hcl
  intro hmem
  have := ((step_gives hi hv h0 hm2 p0 hs' hmem).2 hm).2 (hdd sl p0)
  have := ((hv i sl p0).ok.hs.low n u p2).2
  omega

end

/-! ## Concrete cases -/

/-- A computable form of `privateStored`. -/
def isPrivateStored (s : St) (i n : Nat) : Bool :=
  match AMap.get s.slots i with
  | none => false
  | some sl => match AMap.get sl.token.sess n, sl.token.handles.get n with
    | none, some u => sl.token.store.db.objs.any fun p =>
        decide (AMap.get p.2 CKA_UNIQUE_ID = some (.text u)) &&
        (match AMap.get p.2 CKA_TOKEN with | some (.int v) => decide (v ≠ 0) | _ => false) &&
        decide (AMap.get p.2 CKA_PRIVATE ≠ some (.int 0))
    | _, _ => false

theorem isPrivateStored_ok {s : St} {i n : Nat} (h : isPrivateStored s i n = true) : privateStored s i n := by
  unfold isPrivateStored at h
  split at h
  · cases h
  rename_i sl hs
  split at h
  · rename_i u h1 h2
    obtain ⟨⟨id, rows⟩, hm, hp⟩ := List.any_eq_true.1 h
    simp only [Bool.and_eq_true, decide_eq_true_eq] at hp
    obtain ⟨⟨p1, p2⟩, p3⟩ := hp
    split at p2
    · rename_i v ht
      exact ⟨sl, u, id, rows, v, hs, h1, h2, hm, p1, ht, by simpa using p2, p3⟩
    · cases p2
  · cases h

/-- A private AES token key. -/
def exPrivKey : Template :=
  [.ofUlong CKA_CLASS CKO_SECRET_KEY, .ofUlong CKA_KEY_TYPE CKK_AES, .ofBool CKA_TOKEN true,
   .ofBool CKA_PRIVATE true, .ofBool CKA_ENCRYPT true, .mk' CKA_VALUE (List.replicate 16 5)]

/-- A private data object; `tok` says whether it is a token object. -/
def exPrivData (tok : Bool) : Template :=
  [.ofUlong CKA_CLASS CKO_DATA, .ofBool CKA_TOKEN tok, .ofBool CKA_PRIVATE true, .mk' CKA_VALUE [1, 2, 3]]

/-- The user makes a private key (handle 8) and a private data object (handle 9). -/
def exPriv : Trace := exStart ++
  [(exEnv 6, .login 1 CKU_USER exPin), (exEnv 7, .sess 1 (.createObject exPrivKey)),
   (exEnv 8, .sess 1 (.createObject (exPrivData true)))]

/-- … and logs out. -/
def exPrivOut : Trace := exPriv ++ [(exEnv 9, .logout 1)]

theorem loggedOut_of {s : St} {i : Nat} (h : (AMap.get s.slots i).all (fun sl => sl.token.logged.isNone) = true) :
    loggedOut s i := by
  intro sl hs
  rw [hs] at h
  simpa using h

set_option maxRecDepth 10000 in
/-- The hypotheses of the theorems are met, and the calls are refused. -/
example : onSlot exMechs exCrypto exOracle (exRun exPrivOut) 1 7 ∧ loggedOut (exRun exPrivOut) 7 ∧
    privateStored (exRun exPrivOut) 7 8 ∧ privateStored (exRun exPrivOut) 7 9 ∧
    (exOuts (exPrivOut ++ [(exEnv 10, .sess 1 (.getAttr 9 [⟨CKA_VALUE, false, 9, []⟩])),
      (exEnv 11, .sess 1 (.setAttr 9 [.mk' CKA_VALUE [9]])), (exEnv 12, .sess 1 (.copyObject 9 [])),
      (exEnv 13, .sess 1 (.destroyObject 9)), (exEnv 14, .op 1 (.opInit .enc (some (CKM_AES_ECB, [])) 8 [])),
      (exEnv 15, .sess 1 (.findInit [.ofBool CKA_TOKEN true])), (exEnv 16, .sess 1 (.find 9))])).drop 10 =
    [.attrs (.error .objectHandleInvalid) [⟨CKA_VALUE, false, 9, []⟩], .err .userNotLoggedIn,
     .err .userNotLoggedIn, .err .userNotLoggedIn, .err .generalError, .ok, .handles []] := by
  refine ⟨⟨exEnv 0, .rwPublic, CKF_RW_SESSION ||| CKF_SERIAL_SESSION, by decide +kernel⟩, loggedOut_of (by decide +kernel),
    isPrivateStored_ok (by decide +kernel), isPrivateStored_ok (by decide +kernel), ?_⟩
  decide +kernel

/-- Mechanisms whose derivation parameter names handle 9. -/
def exMechsD : Mechs := { exMechs with deriveHandles := fun _ _ => .ok [9] }

/-- The hypothesis of `C12_derive`. -/
example : exMechsD.deriveHandles 1 [] = .ok [9] := rfl

/-! ## Violations -/

set_option maxRecDepth 10000 in
/-- The full property is false: C_GetObjectSize tells the size of a private token object while nobody is
logged in (`src/token.rs:863-873` has no such check). -/
theorem C12_size_violation : ∃ (M : Mechs) (C : Crypto) (O : Oracle) (s : St) (e : Env) (i h n k : Nat),
    onSlot M C O s h i ∧ loggedOut s i ∧ privateStored s i n ∧
      (step M C O e s (.sess h (.getObjectSize n))).1 = .size k := by
  refine ⟨exMechs, exCrypto, exOracle, exRun exPrivOut, exEnv 10, 7, 1, 9, 451,
    ⟨exEnv 0, .rwPublic, CKF_RW_SESSION ||| CKF_SERIAL_SESSION, by decide +kernel⟩, loggedOut_of (by decide +kernel),
    isPrivateStored_ok (by decide +kernel), by decide +kernel⟩

set_option maxRecDepth 10000 in
/-- The full property is false: with nobody logged in a private session object is made, and its value read
(`src/token.rs:720-739`, `:781-808`). -/
theorem C12_session_violation : ∃ (M : Mechs) (C : Crypto) (O : Oracle) (s : St) (e e' : Env) (i h n : Nat)
    (tm : Template) (b : Bytes), onSlot M C O s h i ∧ loggedOut s i ∧ .ofBool CKA_PRIVATE true ∈ tm ∧
      (step M C O e s (.sess h (.createObject tm))).1 = .handle n ∧
      (step M C O e' (step M C O e s (.sess h (.createObject tm))).2
        (.sess h (.getAttr n [⟨CKA_VALUE, false, 9, []⟩, ⟨CKA_PRIVATE, false, 1, []⟩]))).1 =
        .attrs (.ok ()) [⟨CKA_VALUE, false, 3, b⟩, ⟨CKA_PRIVATE, false, 1, [1]⟩] := by
  refine ⟨exMechs, exCrypto, exOracle, exRun exPrivOut, exEnv 10, exEnv 11, 7, 1, 10, exPrivData false, [1, 2, 3],
    ⟨exEnv 0, .rwPublic, CKF_RW_SESSION ||| CKF_SERIAL_SESSION, by decide +kernel⟩, loggedOut_of (by decide +kernel),
    by simp [exPrivData], ?_, ?_⟩
  all_goals decide +kernel

/-- The user begins an encryption and a search, then logs out. -/
def exPrivBegun : Trace := exPriv ++
  [(exEnv 9, .op 1 (.opInit .enc (some (CKM_AES_ECB, [])) 8 [])),
   (exEnv 10, .sess 1 (.findInit [.ofBool CKA_TOKEN true])), (exEnv 11, .logout 1)]

set_option maxRecDepth 10000 in
/-- The full property is false: an encryption with a private key that was begun before C_Logout goes on after
it (`src/token.rs:414-429` leaves the operations of the sessions alone). -/
theorem C12_operation_violation : ∃ (M : Mechs) (C : Crypto) (O : Oracle) (tr : Trace) (e₁ e₂ e₃ : Env) (i h n m : Nat)
    (b : Bytes) (q : OpIn), let s := after M C O [] tr
      let s₁ := (step M C O e₁ s (.op h (.opInit .enc (some (m, [])) n []))).2
      let s₂ := (step M C O e₂ s₁ (.logout h)).2
      privateStored s₂ i n ∧ loggedOut s₂ i ∧ (step M C O e₁ s (.op h (.opInit .enc (some (m, [])) n []))).1 = .ok ∧
        (step M C O e₃ s₂ (.op h (.opRun .enc .oneShot q))).1 = .bytes b := by
  refine ⟨exMechs, exCrypto, exOracle, exPriv, exEnv 9, exEnv 10, exEnv 11, 7, 1, 8, CKM_AES_ECB, [1],
    ⟨[1], [], [], [], some 8⟩, isPrivateStored_ok (by decide +kernel), loggedOut_of (by decide +kernel), ?_, ?_⟩
  all_goals decide +kernel

set_option maxRecDepth 10000 in
/-- The full property is false: a search begun before C_Logout answers private objects after it. -/
theorem C12_search_violation : ∃ (M : Mechs) (C : Crypto) (O : Oracle) (tr : Trace) (e : Env) (i h n : Nat) (l : List Nat),
    loggedOut (after M C O [] tr) i ∧ privateStored (after M C O [] tr) i n ∧ n ∈ l ∧
      (step M C O e (after M C O [] tr) (.sess h (.find 9))).1 = .handles l := by
  refine ⟨exMechs, exCrypto, exOracle, exPrivBegun, exEnv 12, 7, 1, 8, [8, 9], loggedOut_of (by decide +kernel),
    isPrivateStored_ok (by decide +kernel), by simp, by decide +kernel⟩

end Kry
