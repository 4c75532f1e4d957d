import Verif.Proofs.Kept
import Verif.Proofs.StoreFetch
import Verif.Proofs.PinFlags
import Verif.Proofs.Ids
import Verif.Props.C10
import Verif.Props.C08
import Verif.Props.C25
import Verif.Props.ExMechs

/-!
# C27: stored objects read back unchanged

`C27_stable`: C_GetAttributeValue gives the same answer for a token object before and after any run of calls (faults,
crashes, restarts, logins and PIN changes included) that neither destroys it nor sets its attributes.
`C27_created`, `C27_generated`: what is read back from a new token object is what C_CreateObject and C_GenerateKey
made of the template.

What is excluded by the hypotheses is shown to break the claim: a template with the unique id of a stored object
(`C27_overwrite_violation`), and HOTP keys, whose counter is part of the object.
-/

namespace Kry
open Spec

/-- One event leaves the object with unique id `u` of slot `i` alone: it neither destroys nor sets it nor initialises the
token, the library is not started with merging of duplicates, and no object made in it takes `u` as unique id. -/
structure Spec.LeavesId (i : Nat) (u : Bytes) (s : St) (e : Env) (c : Call) : Prop where
  spares : sparesId s i u c
  token : ∀ p l, c ≠ .initToken i p l
  merge : noMerge c
  drawn : ∀ q, e.uuid q ≠ u
  asked : ¬ asksId c u
  plain : plain e

/-- Every event of a run does. -/
def Spec.leavesId (M : Mechs) (C : Crypto) (O : Oracle) (i : Nat) (u : Bytes) : St → Trace → Prop
  | _, [] => True
  | s, (e, c) :: rest => LeavesId i u s e c ∧ leavesId M C O i u (step M C O e s c).2 rest

variable {M : Mechs} {C : Crypto} {O : Oracle}

/-! ## Along a run -/

/-- What stays of a slot: the rows of `u` and the master key. -/
structure Stays (C : Crypto) (u : Bytes) (r : Option (List (Nat × DbVal))) (K : Bytes) (v : Nat) (s : St) (i : Nat) : Prop where
  inv : Inv s
  hinv : HInv s
  tinv : TInv s
  agree : ∃ o, Kry.Agree s o
  kept : KeptAt u r s i
  vault : ∃ π, SlotV C s i K v π

theorem stays_run (hM : noCounter M) (hI : HonoursId M) {u : Bytes} {r : Option (List (Nat × DbVal))} {K : Bytes} {v i : Nat}
    (tr : Trace) {s : St} (hl : leavesId M C O i u s tr) (h : Stays C u r K v s i) : Stays C u r K v (run M C O s tr) i := by
  induction tr generalizing s with
  | nil => exact h
  | cons p tr ih =>
    obtain ⟨e, c⟩ := p
    obtain ⟨l, hl⟩ := hl
    refine ih hl ?_
    obtain ⟨o, a⟩ := h.agree
    obtain ⟨π, hv⟩ := h.vault
    obtain ⟨K', v', π', ini, s1, _, _, _, _, s6⟩ := step_pins M O c h.inv a l.plain hv
    obtain ⟨rfl, rfl⟩ := s6 l.token
    exact ⟨inv_step M O e s c h.inv, hinv_step M O e s c h.inv h.hinv, tinv_step M O e s c h.inv h.tinv, ⟨_, agree_step M O e c h.inv a⟩,
      kept_step h.inv h.hinv h.tinv hM l.merge l.spares l.token (fun sl o _ m => ids_made hI m l.drawn l.asked) h.kept, ⟨π', s1⟩⟩

/-- No token merges duplicates. -/
theorem noDedup_step {e : Env} {s : St} {c : Call} (hi : Inv s) (hm : noMerge c)
    (h : ∀ i sl, AMap.get s.slots i = some sl → sl.token.cfg.dedup = none) :
    ∀ i sl, AMap.get (step M C O e s c).2.slots i = some sl → sl.token.cfg.dedup = none := by
  intro i sl hs'
  by_cases h1 : c = .finalize
  · subst h1
    simp only [step, fnFinalize] at hs'
    split at hs'
    · exact h i sl hs'
    · cases hs'
  by_cases h2 : c = .crash
  · subst h2; cases hs'
  cases hs : AMap.get s.slots i with
  | some sl0 =>
    obtain ⟨sl2, hs2, p⟩ := step_path (M := M) (O := O) (e := e) hi hs h1 h2
    rw [hs2] at hs'; injection hs' with hs'; subst hs'
    rw [path_cfg p]; exact h i _ hs
  | none =>
    obtain ⟨e', cfg, conf, hcc, hmem, _, hnew⟩ := step_new hs hs'
    subst hcc
    rw [cfg_new hnew]; exact hm _ hmem

theorem noDedup_run (tr : Trace) {s : St} (hi : Inv s) (hm : ∀ p ∈ tr, noMerge p.2)
    (h : ∀ i sl, AMap.get s.slots i = some sl → sl.token.cfg.dedup = none) :
    ∀ i sl, AMap.get (run M C O s tr).slots i = some sl → sl.token.cfg.dedup = none := by
  induction tr generalizing s with
  | nil => exact h
  | cons p tr ih =>
    exact ih (inv_step M O p.1 s p.2 hi) (fun q hq => hm q (List.mem_cons_of_mem _ hq))
      (noDedup_step hi (hm p (List.mem_cons_self ..)) h)

theorem stays_reach (tr : Trace) (hp : ∀ p ∈ tr, plain p.1) (hm : ∀ p ∈ tr, noMerge p.2) (i : Nat) (u : Bytes) :
    ∃ K v, Stays C u (rowsOf (dbAt (after M C O [] tr) i).objs u) K v (after M C O [] tr) i := by
  obtain ⟨K, v, π, hv, _⟩ := (pinInv_reach (C := C) M O tr i hp).among
  exact ⟨K, v, inv_reach (C := C) M O [] tr, hinv_reach (C := C) M O [] tr, tinv_reach M O (fun p h => by cases h) tr, ⟨_, agree_reach M O [] tr⟩,
    ⟨rfl, fun sl h => noDedup_run tr (inv_empty [] 0) hm (fun i sl h => by cases h) i sl h⟩, ⟨π, hv⟩⟩

/-! ## Reading -/

theorem logged_aci {t : Token} {K : Bytes} {v : Nat} {π : Pins} (h : TVault C t K v π) {w : User} (hw : t.logged = some w) :
    t.store.aci = ⟨v, some K, true⟩ := by
  obtain ⟨_, hk⟩ := h.logged w hw
  have h1 := h.aci.enc
  have h2 := (h.aci.key K hk).2
  revert hk h1 h2
  cases t.store.aci
  simp only
  rintro rfl rfl rfl
  rfl

/-- The handle under which an object is read does not matter. -/
theorem fetch_handle {e : Env} {s : Store} {a b : Handles} {n m : Nat} {hints : List Nat} (h : a.get n = b.get m) :
    s.fetch C e a n hints = (s.fetch C e b m hints).map fun o => { o with handle := n } := by
  unfold Store.fetch
  rw [h]
  cases b.get m with
  | none => rfl
  | some u =>
    simp only
    cases s.db.fetchByUid (e.sub 0) u (fetchHints hints) with
    | error r => rfl
    | ok o =>
      simp only
      cases objFactory o with
      | error r => rfl
      | ok F =>
        simp only
        generalize (if s.aci.encrypt = true then _ else _ : Res Obj) = d
        cases d with
        | error r => rfl
        | ok o => rfl

theorem getAttrs_handle (o : Obj) (n : Nat) (q : List OutAttr) :
    getObjectAttributes { o with handle := n } q = getObjectAttributes o q :=
  getAttributes_congr rfl fun _ _ => rfl

/-- Reading of a stored object by somebody logged in. -/
theorem getAttrs_same {a b : Token} {e : Env} {n m : Nat} {u : Bytes} {q : List OutAttr} (oka : TblOk a.store.db.objs)
    (okb : TblOk b.store.db.objs) (hc : a.store.aci = b.store.aci) (ha : a.loggedIn = true) (hb : b.loggedIn = true)
    (sa : AMap.get a.sess n = none) (sb : AMap.get b.sess m = none) (ga : a.handles.get n = some u) (gb : b.handles.get m = some u)
    (hr : rowsOf a.store.db.objs u = rowsOf b.store.db.objs u) :
    a.getObjectAttrs C e n q = b.getObjectAttrs C e m q ∧
      ∀ o, a.getObjectByHandle C e n = .ok o → b.getObjectByHandle C e m = .ok { o with handle := m } := by
  have h1 : ∀ hints, b.store.fetch C e b.handles m hints = (a.store.fetch C e a.handles n hints).map fun o => { o with handle := m } := by
    intro hints
    rw [fetch_handle (a := b.handles) (b := a.handles) (n := m) (m := n) (gb.trans ga.symm)]
    rw [fetch_congr okb oka hc.symm (hs := a.handles) (n := n) (fun u' hu' => by
      rw [ga] at hu'; injection hu' with hu'; subst hu'; exact hr.symm)]
  constructor
  · unfold Token.getObjectAttrs
    simp only [sa, sb, ha, hb, h1, Bool.not_true, Bool.false_and, Bool.false_eq_true, if_false, if_true, List.append_nil]
    cases a.store.fetch C e a.handles n (q.map OutAttr.typ) with
    | error r => rfl
    | ok o => exact (getAttrs_handle o m q).symm
  · intro o
    unfold Token.getObjectByHandle
    simp only [sa, sb, ha, hb, h1, Bool.not_true, Bool.false_and, Bool.false_eq_true, if_false]
    cases a.store.fetch C e a.handles n [] with
    | error r => nofun
    | ok o' => intro h; injection h with h; subst h; rfl

/-- Someone is logged in to the token of slot `i`. -/
def Spec.loggedInAt (s : St) (i : Nat) : Prop := ∃ sl w, AMap.get s.slots i = some sl ∧ sl.token.logged = some w

theorem getAttr_shape {e : Env} {s : St} (hi : Inv s) {h i n : Nat} {q : List OutAttr} {r : Res Unit} {l : List OutAttr} {sl : Slot}
    (ho : onSlot M C O s h i) (hs : AMap.get s.slots i = some sl)
    (ha : (step M C O e s (.sess h (.getAttr n q))).1 = .attrs r l) : sl.token.getObjectAttrs C e n q = (r, l) := by
  obtain ⟨sl', x, hg, hs', hx⟩ := getSession_live hi ((onSlot_iff hi).1 ho)
  rw [hs] at hs'; injection hs' with hs'; subst hs'
  unfold step at ha
  simp only [hg, sessStep] at ha
  split at ha
  · cases ha
  · simp only at ha
    injection ha with h1 h2
    rw [← h1, ← h2]

/-- C27 for any stretch of history: a token object that is not destroyed and whose attributes are not set reads the same. -/
theorem C27_stable (hM : noCounter M) (hI : HonoursId M) (tr₁ tr₂ : Trace) (i : Nat) (u : Bytes)
    (hp : ∀ p ∈ tr₁, plain p.1) (hm : ∀ p ∈ tr₁, noMerge p.2)
    (hl : leavesId M C O i u (after M C O [] tr₁) tr₂)
    (n₁ n₂ h₁ h₂ : Nat) (e : Env) (q : List OutAttr)
    (ho₁ : onSlot M C O (after M C O [] tr₁) h₁ i) (ho₂ : onSlot M C O (run M C O (after M C O [] tr₁) tr₂) h₂ i)
    (hn₁ : standsFor (after M C O [] tr₁) i n₁ u) (hn₂ : standsFor (run M C O (after M C O [] tr₁) tr₂) i n₂ u)
    (ht₁ : sessionObj (after M C O [] tr₁) i n₁ = none) (ht₂ : sessionObj (run M C O (after M C O [] tr₁) tr₂) i n₂ = none)
    (hw₁ : loggedInAt (after M C O [] tr₁) i) (hw₂ : loggedInAt (run M C O (after M C O [] tr₁) tr₂) i)
    (r₁ r₂ : Res Unit) (l₁ l₂ : List OutAttr)
    (ha₁ : (step M C O e (after M C O [] tr₁) (.sess h₁ (.getAttr n₁ q))).1 = .attrs r₁ l₁)
    (ha₂ : (step M C O e (run M C O (after M C O [] tr₁) tr₂) (.sess h₂ (.getAttr n₂ q))).1 = .attrs r₂ l₂) :
    r₁ = r₂ ∧ l₁ = l₂ := by
  obtain ⟨K, v, s1⟩ := stays_reach (M := M) (C := C) (O := O) tr₁ hp hm i u
  have s2 := stays_run hM hI tr₂ hl s1
  obtain ⟨a, w₁, a1, a2⟩ := hw₁
  obtain ⟨b, w₂, b1, b2⟩ := hw₂
  have g1 := getAttr_shape s1.inv ho₁ a1 ha₁
  have g2 := getAttr_shape s2.inv ho₂ b1 ha₂
  obtain ⟨sl, h1, h2⟩ := hn₁
  rw [a1] at h1; injection h1 with h1; subst h1
  obtain ⟨sl, h3, h4⟩ := hn₂
  rw [b1] at h3; injection h3 with h3; subst h3
  obtain ⟨π₁, v1⟩ := s1.vault
  obtain ⟨π₂, v2⟩ := s2.vault
  have row : rowsOf a.token.store.db.objs u = rowsOf b.token.store.db.objs u := by
    have r1 := s2.kept.row
    rw [dbAt_some a1, dbAt_some b1] at r1
    exact r1.symm
  have se1 : AMap.get a.token.sess n₁ = none := by
    unfold sessionObj at ht₁; rw [a1] at ht₁; exact ht₁
  have se2 : AMap.get b.token.sess n₂ = none := by
    unfold sessionObj at ht₂; rw [b1] at ht₂; exact ht₂
  have := (getAttrs_same (C := C) (e := e) (q := q) (s1.tinv.slots i a a1) (s2.tinv.slots i b b1)
    ((logged_aci (v1.2 a a1) a2).trans (logged_aci (v2.2 b b1) b2).symm)
    (by unfold Token.loggedIn; rw [a2]; rfl) (by unfold Token.loggedIn; rw [b2]; rfl) se1 se2 h2 h4 row).1
  rw [g1, g2] at this
  injection this with h1 h2
  exact ⟨h1, h2⟩

/-! ## Reading what a call has made -/

/-- Reading the stored object `n` of slot `i`, one finds the values of `o` (attributes that storage does not keep, and the
computed ones of `F`, excepted): those that operations work with, whenever storage answers, and those that
C_GetAttributeValue reports. -/
structure Spec.ReadsAs (M : Mechs) (C : Crypto) (O : Oracle) (F : Factory) (o : Obj) (s : St) (i n : Nat) : Prop where
  used : ∀ sl e, AMap.get s.slots i = some sl → quiet e → ∃ o2, sl.token.getObjectByHandle C e n = .ok o2 ∧
    ∀ t, kept F t → (o2.find t).map Attr.value = (o.find t).map Attr.value
  told : ∀ h t v, onSlot M C O s h i → reports M C O s h n t v → (o.find t).map Attr.value = some v

theorem decryptLoop_mono {e e' : Env} (q : quiet e') {a : Aci} {u : Bytes} {ts : List Nat} {i : Nat} {o o' : Obj}
    (h : decryptLoop C e a u ts i o = .ok o') : decryptLoop C e' a u ts i o = .ok o' := by
  induction ts generalizing i o with
  | nil => exact h
  | cons t ts ih =>
    unfold decryptLoop at h ⊢
    cases hf : o.find t with
    | none => simp only [hf] at h ⊢; exact ih h
    | some b =>
      simp only [hf] at h ⊢
      cases hd : a.decryptValue C (e.sub i) u b.value with
      | error r => simp only [hd] at h; cases h
      | ok p =>
        have hd' : a.decryptValue C (e'.sub i) u b.value = .ok p := by
          unfold Aci.decryptValue at hd ⊢
          split at hd
          · unfold decryptData at hd ⊢
            simp only [quiet_fails (quiet_sub q i)]
            revert hd
            repeat' split
            all_goals first | exact id | nofun
          · cases hd
        simp only [hd, hd'] at h ⊢
        cases hs : o.setAttr (Attr.ofBytes t p) with
        | error r => simp only [hs] at h; cases h
        | ok o1 => simp only [hs] at h ⊢; exact ih h

/-- What can be read in bad times can be read in good ones. -/
theorem fetch_mono {e e' : Env} (q : quiet e') {s : Store} {hs : Handles} {n : Nat} {hints : List Nat} {o : Obj}
    (h : s.fetch C e hs n hints = .ok o) : s.fetch C e' hs n hints = .ok o := by
  unfold Store.fetch at h ⊢
  cases hg : hs.get n with
  | none => simp only [hg] at h; cases h
  | some u =>
    simp only [hg] at h ⊢
    cases hf : s.db.fetchByUid (e.sub 0) u (fetchHints hints) with
    | error r => simp only [hf] at h; cases h
    | ok o1 =>
      have hf' : s.db.fetchByUid (e'.sub 0) u (fetchHints hints) = .ok o1 := by
        unfold Db.fetchByUid at hf ⊢
        simp only [quiet_fails (quiet_sub q 0)]
        split at hf
        · cases hf
        · rename_i hb
          rw [if_neg hb]
          split at hf
          · cases hf
          · exact hf
      simp only [hf, hf'] at h ⊢
      cases hF : objFactory o1 with
      | error r => simp only [hF] at h; cases h
      | ok F =>
        simp only [hF] at h ⊢
        by_cases hE : s.aci.encrypt = true
        · simp only [hE, if_true] at h ⊢
          cases hd : decryptLoop C (e.sub 1) s.aci u F.sensitive 0 o1 with
          | error r => simp only [hd] at h; cases h
          | ok o2 =>
            simp only [hd, decryptLoop_mono (quiet_sub q 1) hd] at h ⊢
            exact h
        · simp only [hE] at h ⊢; exact h

theorem fetch_small {e : Env} {s : Store} {hs : Handles} {n : Nat} {hints : List Nat} {o : Obj}
    (h : s.fetch C e hs n hints = .ok o) : ∀ t ∈ fetchHints hints, t < 2 ^ 32 := by
  intro t ht
  unfold Store.fetch at h
  split at h
  · cases h
  · unfold Db.fetchByUid at h
    split at h
    · cases h
    · rename_i o1 hf
      split at hf
      · cases hf
      · rename_i hb
        simp only [List.any_eq_true, decide_eq_true_eq, not_exists, not_and, Decidable.not_not] at hb
        exact hb t ht

theorem store_get {e : Env} {s s' : Store} {h h' : Handles} {o : Obj} {n : Nat} {u : Bytes} (hz : o.handle = 0)
    (hu : o.getStr CKA_UNIQUE_ID = .ok u)
    (hs : s.store C e h o = (.ok n, s', h')) : h'.get n = some u := by
  have ins : ∀ (h : Handles) n u, (h.insert n u).1 = .ok () → (h.insert n u).2.get n = some u := by
    intro h n u
    unfold Handles.insert
    split
    · nofun
    · rename_i hb
      intro _
      simp only [Bool.or_eq_true, not_or, Bool.not_eq_true, Option.isSome_eq_false_iff, Option.isNone_iff_eq_none] at hb
      unfold Handles.get at hb ⊢
      simp only [AMap.get_append, hb.1]
      simp [AMap.get_cons]
  unfold Store.store at hs
  split at hs
  · cases hs
  · rw [hu] at hs
    simp only at hs
    split at hs
    · cases hs
    · rename_i o1 ho1
      have hz1 : (delAll o1 (by assumption : Factory).ephemeral).handle = 0 := by
        rw [delAll_handle]
        split at ho1
        · rw [encryptLoop_handle ho1]; exact hz
        · injection ho1 with ho1; rw [← ho1]; exact hz
      rw [if_pos hz1] at hs
      have := ins (h.bump.2) h.bump.1 u
      generalize hb : (h.bump.2).insert h.bump.1 u = p at this hs
      obtain ⟨r, h2⟩ := p
      simp only at hs
      cases r with
      | error r => cases hs
      | ok _ =>
        simp only at hs this
        revert hs
        generalize s.db.storeObj _ _ = p
        obtain ⟨r, db⟩ := p
        cases r with
        | error r => nofun
        | ok _ =>
          simp only
          intro hs
          injection hs with h1 h2; injection h1 with h1; injection h2 with h2 h3
          rw [← h1, ← h3]; exact this trivial

/-- A token object that was inserted, and how it reads wherever its rows and the key are the same. -/
theorem insert_stored {e : Env} {k n : Nat} {t t' : Token} {o : Obj} (ok : TblOk t.store.db.objs) (hz : Zero o) (ht : o.isToken = true)
    (hr : Regular o) (hi : t.insertObject C e k o = (.ok n, t')) :
    ∃ F u r, objFactory o = .ok F ∧ o.getStr CKA_UNIQUE_ID = .ok u ∧ rowsOf t'.store.db.objs u = some r ∧
      t'.handles.get n = some u ∧ t.loggedIn = true ∧
      ∀ {e2 : Env} {s2 : Store} {h2 : Handles} {n2 : Nat} {hints : List Nat}, TblOk s2.db.objs → rowsOf s2.db.objs u = some r →
        sameKey t.store.aci s2.aci → h2.get n2 = some u → quiet e2 → (∀ t ∈ fetchHints hints, t < 2 ^ 32) →
        ∃ o2, s2.fetch C e2 h2 n2 hints = .ok o2 ∧ o2.handle = n2 ∧ objFactory o2 = .ok F ∧
          ∀ t, o2.find t = if (fetchHints hints = [] ∨ t ∈ fetchHints hints) ∧ kept F t then (o.find t).map normA else none := by
  unfold Token.insertObject at hi
  rw [if_pos ht] at hi
  split at hi
  · cases hi
  · rename_i hl
    cases hs : t.store.store C e t.handles o with
    | mk r p =>
      obtain ⟨st, hd⟩ := p
      simp only [hs] at hi
      injection hi with h1 h2
      subst h1; subst h2
      obtain ⟨F, u, r, hF, hu, hrow, hread⟩ := store_fetch ok hr hs
      exact ⟨F, u, r, hF, hu, hrow, store_get hz.handle hu hs, by simpa using hl, hread⟩

theorem reads_of {s : St} {i n : Nat} {u : Bytes} {r : List (Nat × DbVal)} {K : Bytes} {v : Nat} {aci : Aci} {F : Factory} {o : Obj}
    (h : Stays C u (some r) K v s i) (hk : aci = ⟨v, some K, true⟩)
    (hread : ∀ {e2 : Env} {s2 : Store} {h2 : Handles} {n2 : Nat} {hints : List Nat}, TblOk s2.db.objs → rowsOf s2.db.objs u = some r →
        sameKey aci s2.aci → h2.get n2 = some u → quiet e2 → (∀ t ∈ fetchHints hints, t < 2 ^ 32) →
        ∃ o2, s2.fetch C e2 h2 n2 hints = .ok o2 ∧ o2.handle = n2 ∧ objFactory o2 = .ok F ∧
          ∀ t, o2.find t = if (fetchHints hints = [] ∨ t ∈ fetchHints hints) ∧ kept F t then (o.find t).map normA else none)
    (hn : standsFor s i n u) (hs : sessionObj s i n = none) (hw : loggedInAt s i) : ReadsAs M C O F o s i n := by
  obtain ⟨sl, w, g1, g2⟩ := hw
  obtain ⟨_, g3, g4⟩ := hn
  rw [g1] at g3; injection g3 with g3; subst g3
  have se : AMap.get sl.token.sess n = none := by
    unfold sessionObj at hs; rw [g1] at hs; exact hs
  obtain ⟨π, hv⟩ := h.vault
  have ha : sameKey aci sl.token.store.aci := by
    rw [hk, logged_aci (hv.2 sl g1) g2]
    exact ⟨rfl, fun _ => ⟨rfl, rfl⟩⟩
  have ok := h.tinv.slots i sl g1
  have row : rowsOf sl.token.store.db.objs u = some r := by
    have := h.kept.row; rw [dbAt_some g1] at this; exact this
  constructor
  · intro sl' e hs' q
    rw [g1] at hs'; injection hs' with hs'; subst hs'
    obtain ⟨o2, f1, _, _, f4⟩ := hread (hints := []) ok row ha g4 q (by intro t ht; cases ht)
    refine ⟨o2, ?_, fun t ht => ?_⟩
    · unfold Token.getObjectByHandle Token.loggedIn
      simp only [se, f1, g2, Option.isSome_some, Bool.not_true, Bool.false_and, Bool.false_eq_true, if_false]
    · rw [f4 t, if_pos ⟨.inl rfl, ht⟩]
      cases o.find t <;> simp
  · intro hh t val hon hrep
    obtain ⟨j, sl', x, e, hints, o1, a, hm, hs', _, hlook, hin, _, hf, _, hval⟩ := reports_obj h.inv hrep
    have := (onSlot_iff h.inv).1 hon
    rw [hm] at this; injection this with this; subst this
    rw [g1] at hs'; injection hs' with hs'; subst hs'
    unfold Token.looked at hlook
    rw [se] at hlook
    simp only at hlook
    obtain ⟨o2, f1, _, _, f4⟩ := hread (hints := hints) ok row ha g4 (e2 := quietEnv) (fun _ => rfl) (fetch_small hlook)
    have f5 := fetch_mono (e' := quietEnv) (fun _ => rfl) hlook
    rw [f1] at f5; injection f5 with f5; subst f5
    rw [f4 t] at hf
    split at hf
    · cases ho : o.find t with
      | none => rw [ho] at hf; cases hf
      | some b =>
        rw [ho] at hf
        simp only [Option.map_some, Option.some.injEq] at hf
        rw [← hval, ← hf]; simp
    · cases hf

/-- A call that inserted the token object `o` under handle `n`: how `o` reads from then on. -/
theorem stored_reads (hM : noCounter M) (hI : HonoursId M) (tr₁ : Trace) (hp : ∀ p ∈ tr₁, plain p.1) (hm : ∀ p ∈ tr₁, noMerge p.2)
    {e e' : Env} (he : plain e) {c : Call} (hc : noMerge c) {i k n : Nat} (hini : ∀ p l, c ≠ .initToken i p l) {sl sl' : Slot} {o : Obj}
    (hs : AMap.get (after M C O [] tr₁).slots i = some sl)
    (hs' : AMap.get (step M C O e (after M C O [] tr₁) c).2.slots i = some sl')
    (hz : Zero o) (ht : o.isToken = true) (hr : Regular o) {t0 : Token} (h0 : t0.store = sl.token.store ∧ t0.logged = sl.token.logged)
    (hins : t0.insertObject C e' k o = (.ok n, sl'.token)) :
    ∃ F u, objFactory o = .ok F ∧ o.getStr CKA_UNIQUE_ID = .ok u ∧ standsFor (step M C O e (after M C O [] tr₁) c).2 i n u ∧
      ∀ tr₂, leavesId M C O i u (step M C O e (after M C O [] tr₁) c).2 tr₂ → ∀ n₂,
        standsFor (run M C O (step M C O e (after M C O [] tr₁) c).2 tr₂) i n₂ u →
        sessionObj (run M C O (step M C O e (after M C O [] tr₁) c).2 tr₂) i n₂ = none →
        loggedInAt (run M C O (step M C O e (after M C O [] tr₁) c).2 tr₂) i →
        ReadsAs M C O F o (run M C O (step M C O e (after M C O [] tr₁) c).2 tr₂) i n₂ := by
  obtain ⟨K, v, s1⟩ := stays_reach (M := M) (C := C) (O := O) tr₁ hp hm i []
  obtain ⟨F, u, r, hF, hu, hrow, hget, hlog, hread⟩ := insert_stored (t := t0) (by rw [h0.1]; exact s1.tinv.slots i sl hs) hz ht hr hins
  refine ⟨F, u, hF, hu, ⟨sl', hs', hget⟩, ?_⟩
  intro tr₂ hl n₂ hn₂ hse hw
  obtain ⟨o', a⟩ := s1.agree
  obtain ⟨π, hv⟩ := s1.vault
  obtain ⟨K', v', π', ini, t1, _, _, _, _, t6⟩ := step_pins M O c s1.inv a he hv
  obtain ⟨rfl, rfl⟩ := t6 hini
  have s2 : Stays C u (some r) K' v' (step M C O e (after M C O [] tr₁) c).2 i :=
    ⟨inv_step M O e _ c s1.inv, hinv_step M O e _ c s1.inv s1.hinv, tinv_step M O e _ c s1.inv s1.tinv, ⟨_, agree_step M O e c s1.inv a⟩,
      ⟨by rw [dbAt_some hs']; exact hrow, noDedup_step s1.inv hc
        (fun j slj hj => noDedup_run tr₁ (inv_empty [] 0) hm (fun i sl h => by cases h) j slj hj) i⟩, ⟨π', t1⟩⟩
  have s3 := stays_run hM hI tr₂ hl s2
  unfold Token.loggedIn at hlog
  obtain ⟨w, hw'⟩ := Option.isSome_iff_exists.1 hlog
  exact reads_of s3 (by rw [h0.1]; exact logged_aci (hv.2 sl hs) (h0.2.symm.trans hw')) hread hn₂ hse hw

theorem certDuplicate_store (e : Env) (t : Token) (o : Obj) :
    (t.certDuplicate e o).2.store = t.store ∧ (t.certDuplicate e o).2.logged = t.logged := by
  unfold Token.certDuplicate Token.isDuplicate
  repeat' split
  all_goals exact ⟨rfl, rfl⟩

theorem checkDedup_store (e : Env) {t : Token} (o : Obj) (h : t.cfg.dedup = none) :
    (t.checkDedup C e o).2.store = t.store ∧ (t.checkDedup C e o).2.logged = t.logged ∧ ∀ n, (t.checkDedup C e o).1 ≠ .ok (some n) := by
  unfold Token.checkDedup
  simp only [h]
  split
  · obtain ⟨h1, h2⟩ := certDuplicate_store (e.sub 0) t o
    generalize t.certDuplicate (e.sub 0) o = p at h1 h2 ⊢
    obtain ⟨r, t1⟩ := p
    rcases r with r | _ | n <;> exact ⟨h1, h2, nofun⟩
  · exact ⟨rfl, rfl, nofun⟩

/-- C27 for C_CreateObject. -/
theorem C27_created (hM : noCounter M) (hI : HonoursId M) (hR : RegularMechs M O) (tr₁ : Trace) (hp : ∀ p ∈ tr₁, plain p.1)
    (hm : ∀ p ∈ tr₁, noMerge p.2) (e : Env) (he : plain e) (i h n : Nat) (tm : Template) (ho : onSlot M C O (after M C O [] tr₁) h i)
    (hok : (step M C O e (after M C O [] tr₁) (.sess h (.createObject tm))).1 = .handle n) :
    ∃ o, factoriesCreate O (e.sub 0).uid tm = .ok o ∧ (o.isToken = true →
      ∃ F u, objFactory o = .ok F ∧ o.getStr CKA_UNIQUE_ID = .ok u ∧
        standsFor (step M C O e (after M C O [] tr₁) (.sess h (.createObject tm))).2 i n u ∧
        ∀ tr₂, leavesId M C O i u (step M C O e (after M C O [] tr₁) (.sess h (.createObject tm))).2 tr₂ → ∀ n₂,
          standsFor (run M C O (step M C O e (after M C O [] tr₁) (.sess h (.createObject tm))).2 tr₂) i n₂ u →
          sessionObj (run M C O (step M C O e (after M C O [] tr₁) (.sess h (.createObject tm))).2 tr₂) i n₂ = none →
          loggedInAt (run M C O (step M C O e (after M C O [] tr₁) (.sess h (.createObject tm))).2 tr₂) i →
          ReadsAs M C O F o (run M C O (step M C O e (after M C O [] tr₁) (.sess h (.createObject tm))).2 tr₂) i n₂) := by
  have hi := inv_reach (C := C) M O [] tr₁
  obtain ⟨sl, x, hg, hs, hx⟩ := getSession_live hi ((onSlot_iff hi).1 ho)
  have hg : (after M C O [] tr₁).getSession h = .ok (i, sl, x) := hg
  have hdd : sl.token.cfg.dedup = none := noDedup_run tr₁ (inv_empty [] 0) hm (fun i sl h => by cases h) i sl hs
  have shape : ∃ o, factoriesCreate O (e.sub 0).uid tm = .ok o ∧ (o.isToken = true →
      ∃ (sl' : Slot) (t0 : Token), AMap.get (step M C O e (after M C O [] tr₁) (.sess h (.createObject tm))).2.slots i = some sl' ∧
        (t0.store = sl.token.store ∧ t0.logged = sl.token.logged) ∧ t0.insertObject C ((e.sub 2)) h o = (.ok n, sl'.token)) := by
    unfold step at hok ⊢
    simp only [hg, sessStep] at hok ⊢
    revert hok
    unfold fnCreate
    split
    · nofun
    split
    · nofun
    unfold Token.createObject
    cases hc : factoriesCreate O (e.sub 0).uid tm with
    | error r => nofun
    | ok o =>
      simp only
      intro hok
      refine ⟨o, rfl, fun ht => ?_⟩
      rw [if_pos ht] at hok ⊢
      split at hok
      · cases hok
      · rename_i hl
        rw [if_neg hl]
        obtain ⟨c1, c2, c3⟩ := checkDedup_store (C := C) (e.sub 1) o hdd
        generalize sl.token.checkDedup C (e.sub 1) o = p at hok c1 c2 c3 ⊢
        obtain ⟨r, t0⟩ := p
        rcases r with r | _ | n'
        · cases hok
        · simp only at hok ⊢
          generalize hins : t0.insertObject C (e.sub 2) h o = p at hok ⊢
          obtain ⟨r, t'⟩ := p
          cases r with
          | error r => cases hok
          | ok n' =>
            injection hok with hok
            subst hok
            exact ⟨_, t0, (get_setSlot hs).trans (if_pos rfl), ⟨c1, c2⟩, hins⟩
        · exact absurd rfl (c3 n')
  obtain ⟨o, hc, hsh⟩ := shape
  refine ⟨o, hc, fun ht => ?_⟩
  obtain ⟨sl', t0, hs', h0, hins⟩ := hsh ht
  exact stored_reads hM hI tr₁ hp hm he (by trivial) (by intro _ _ h; cases h) hs hs' (zero_create hc) ht (regular_create hR hc) h0 hins

/-- C27 for C_GenerateKey. -/
theorem C27_generated (hM : noCounter M) (hI : HonoursId M) (hR : RegularMechs M O) (tr₁ : Trace) (hp : ∀ p ∈ tr₁, plain p.1)
    (hm : ∀ p ∈ tr₁, noMerge p.2) (e : Env) (he : plain e) (i h n m : Nat) (q : Bytes) (tm : Template) (ho : onSlot M C O (after M C O [] tr₁) h i)
    (hok : (step M C O e (after M C O [] tr₁) (.op h (.generateKey m q tm))).1 = .handle n) :
    ∃ o, M.genKey (e.sub 0) m q tm = .ok o ∧ (o.isToken = true →
      ∃ F u, objFactory (fresh o) = .ok F ∧ (fresh o).getStr CKA_UNIQUE_ID = .ok u ∧
        standsFor (step M C O e (after M C O [] tr₁) (.op h (.generateKey m q tm))).2 i n u ∧
        ∀ tr₂, leavesId M C O i u (step M C O e (after M C O [] tr₁) (.op h (.generateKey m q tm))).2 tr₂ → ∀ n₂,
          standsFor (run M C O (step M C O e (after M C O [] tr₁) (.op h (.generateKey m q tm))).2 tr₂) i n₂ u →
          sessionObj (run M C O (step M C O e (after M C O [] tr₁) (.op h (.generateKey m q tm))).2 tr₂) i n₂ = none →
          loggedInAt (run M C O (step M C O e (after M C O [] tr₁) (.op h (.generateKey m q tm))).2 tr₂) i →
          ReadsAs M C O F (fresh o) (run M C O (step M C O e (after M C O [] tr₁) (.op h (.generateKey m q tm))).2 tr₂) i n₂) := by
  have hi := inv_reach (C := C) M O [] tr₁
  obtain ⟨sl, x, hg, hs, hx⟩ := getSession_live hi ((onSlot_iff hi).1 ho)
  have hg : (after M C O [] tr₁).getSession h = .ok (i, sl, x) := hg
  have shape : ∃ o, M.genKey (e.sub 0) m q tm = .ok o ∧
      ∃ sl', AMap.get (step M C O e (after M C O [] tr₁) (.op h (.generateKey m q tm))).2.slots i = some sl' ∧
        sl.token.insertObject C ((e.sub 1)) h (fresh o) = (.ok n, sl'.token) := by
    unfold step at hok ⊢
    simp only [hg, opStep] at hok ⊢
    revert hok
    unfold fnGenKey
    split
    · nofun
    split
    · nofun
    split
    · nofun
    cases hc : M.genKey (e.sub 0) m q tm with
    | error r => nofun
    | ok o =>
      simp only
      intro hok
      refine ⟨o, rfl, ?_⟩
      generalize hins : sl.token.insertObject C (e.sub 1) h (fresh o) = p at hok ⊢
      obtain ⟨r, t'⟩ := p
      cases r with
      | error r => cases hok
      | ok n' =>
        injection hok with hok
        subst hok
        exact ⟨_, (get_setSlot hs).trans (if_pos rfl), rfl⟩
  obtain ⟨o, hc, sl', hs', hins⟩ := shape
  refine ⟨o, hc, fun ht => ?_⟩
  have hr := regular_fresh (hR.genKey _ _ _ _ _ hc)
  have ht' : (fresh o).isToken = true := by
    rw [← ht]
    have e : (fresh o).attrs = o.attrs := oneUid_same _ (hR.genKey _ _ _ _ _ hc).once
    unfold Obj.isToken Obj.boolOr Obj.find
    rw [e]
  exact stored_reads hM hI tr₁ hp hm he (by trivial) (by intro _ _ h; cases h) hs hs' (zero_fresh o) ht' hr ⟨rfl, rfl⟩ hins

/-! ## A case: an AES key read before and after a change of PIN, a crash and a restart -/

theorem regular_generateAes {rnd : Nat → Res Bytes} {uid : Bytes} {m : Nat} {tm : Template} {o : Obj}
    (h : generateAes rnd uid m tm = .ok o) : Regular o := by
  unfold generateAes at h
  split at h
  · cases h
  split at h
  · cases h
  rename_i o0 h0
  have z0 : Regular o0 := regular_keyInternal aesF_mem h0
  split at h
  · cases h
  rename_i o1 h1
  have z1 := regular_ensureUlong h1 z0 (by decide +kernel)
  split at h
  · cases h
  rename_i o2 h2
  have z2 := regular_ensureUlong h2 z1 (by decide +kernel)
  split at h
  · cases h
  rename_i o3 h3
  have z3 : Regular o3 := by
    unfold defaultSecretKeyGenerate at h3
    repeat' split at h3
    all_goals first | (cases h3; done) | skip
    injection h3 with h3
    rw [← h3]
    exact regular_put z2 (inForm_bytes _ _ (by decide +kernel)) (show CKA_VALUE ≠ CKA_CLASS by decide)
  injection h with h
  rw [← h]
  unfold defaultKeyAttributes
  simp only
  refine regular_setBool (regular_setBool (regular_put (regular_setBool z3 (by decide +kernel))
    (inForm_ulong _ _ (by decide +kernel)) (show CKA_KEY_GEN_MECHANISM ≠ CKA_CLASS by decide)) (by decide +kernel)) (by decide +kernel)

theorem exMechs_regular : RegularMechs exMechs exOracle where
  genKey _ _ _ _ _ h := regular_generateAes h
  genPair _ _ _ _ _ _ _ h := by cases h
  derive _ _ _ _ _ _ _ h := by cases h
  importAttrs _ _ b l h a ha := by
    injection h with h
    rw [← h, List.mem_singleton] at ha
    rw [ha]
    exact inForm_bytes _ _ (by decide +kernel)
  asym _ _ _ h := by
    injection h with h
    subst h
    intro a ha; cases ha

theorem exMechs_noCounter : noCounter exMechs := by
  intro e k a op i
  cases k <;> cases a <;> rfl

/-- An AES key on the token whose value may be read. -/
def exPlainKey : Template := exAesWith [.ofBool CKA_TOKEN true, .ofBool CKA_SENSITIVE false, .ofBool CKA_EXTRACTABLE true]

/-- The user logs in. -/
def exC27In : Trace := exStart ++ [(exEnv 6, .login 1 CKU_USER exPin)]

/-- Another object is made, the PIN is changed, the process dies, starts again, and the new PIN logs in and searches. -/
def exC27Then : Trace :=
  [(exEnv 8, .sess 1 (.createObject (exTokData 1))), (exEnv 9, .sess 1 (.setPin exPin [50, 51])), (exEnv 10, .crash),
   (exEnv 11, .initialize exConf), (exEnv 12, .openSession 7 (CKF_RW_SESSION ||| CKF_SERIAL_SESSION)),
   (exEnv 13, .login 1 CKU_USER [50, 51]), (exEnv 14, .sess 1 (.findInit [.ofUlong CKA_CLASS CKO_SECRET_KEY]))]

set_option maxRecDepth 20000 in
example : (exOuts (exC27In ++ [(exEnv 7, .sess 1 (.createObject exPlainKey))] ++ exC27Then ++ [(exEnv 0, .sess 1 (.find 5))])).drop 6 =
    [.ok, .handle 8, .handle 9, .ok, .ok, .ok, .handle 1, .ok, .ok, .handles [8]] := by decide +kernel

theorem of_map {α β : Type} {x : Option α} {f : α → β} {b : β} (h : x.map f = some b) : ∃ a, x = some a ∧ f a = b := by
  cases x with
  | none => cases h
  | some a => exact ⟨a, rfl, by injection h⟩

theorem exC27In_plain : ∀ p ∈ exC27In, plain p.1 ∧ noMerge p.2 := by
  intro p hp
  simp only [exC27In, exStart, List.cons_append, List.nil_append, List.mem_cons, List.not_mem_nil, or_false] at hp
  rcases hp with rfl | rfl | rfl | rfl | rfl | rfl | rfl <;> exact ⟨exEnv_plain _, by simp [noMerge, exConf]⟩

set_option maxRecDepth 20000 in
theorem exC27_leaves (s : St) : leavesId exMechs exCrypto exOracle 7 [97, 104, 97] s exC27Then := by
  refine ⟨?_, ?_, ?_, ?_, ?_, ?_, ?_, trivial⟩ <;>
    refine ⟨fun h n hc => ?_, (fun _ _ => nofun), by simp [noMerge, exConf], fun q h => by simp [exEnv] at h, ?_, exEnv_plain _⟩
  all_goals first
    | (rcases hc with hc | ⟨_, hc⟩ <;> cases hc; done)
    | (rintro ⟨tm, ht, c, hc, h1, h2⟩; simp [templates] at ht; done)
    | skip
  rintro ⟨tm, ht, c, hc, h1, h2⟩
  simp only [templates, List.mem_singleton] at ht
  subst ht
  simp only [exTokData, List.mem_cons, List.not_mem_nil, or_false] at hc
  rcases hc with rfl | rfl | rfl | rfl | rfl <;> exact absurd h1 (by decide)

/-- The state after it. -/
def exC27End : St := exRun (exC27In ++ [(exEnv 7, .sess 1 (.createObject exPlainKey))] ++ exC27Then)

set_option maxRecDepth 20000 in
theorem exC27_stands : standsFor exC27End 7 8 [97, 104, 97] := by
  have h : (AMap.get exC27End.slots 7).map (fun sl : Slot => sl.token.handles.get 8) = some (some [97, 104, 97]) := by decide +kernel
  revert h
  unfold standsFor
  generalize AMap.get exC27End.slots 7 = x
  intro h
  exact of_map h

set_option maxRecDepth 20000 in
theorem exC27_logged : loggedInAt exC27End 7 := by
  have h : (AMap.get exC27End.slots 7).map (fun sl : Slot => sl.token.logged) = some (some .user) := by decide +kernel
  revert h
  unfold loggedInAt
  generalize AMap.get exC27End.slots 7 = x
  intro h
  obtain ⟨sl, h1, h2⟩ := of_map h
  exact ⟨sl, _, h1, h2⟩

set_option maxRecDepth 20000 in
/-- The hypotheses of `C27_created` and, after it, of `C27_stable`. -/
example : noCounter exMechs ∧ HonoursId exMechs ∧ RegularMechs exMechs exOracle ∧
    onSlot exMechs exCrypto exOracle (exRun exC27In) 1 7 ∧
    (step exMechs exCrypto exOracle (exEnv 7) (exRun exC27In) (.sess 1 (.createObject exPlainKey))).1 = .handle 8 ∧
    (∃ o, factoriesCreate exOracle ((exEnv 7).sub 0).uid exPlainKey = .ok o ∧ o.isToken = true ∧
      o.getStr CKA_UNIQUE_ID = .ok [97, 104, 97]) ∧
    leavesId exMechs exCrypto exOracle 7 [97, 104, 97]
      (step exMechs exCrypto exOracle (exEnv 7) (exRun exC27In) (.sess 1 (.createObject exPlainKey))).2 exC27Then ∧
    onSlot exMechs exCrypto exOracle exC27End 1 7 ∧ standsFor exC27End 7 8 [97, 104, 97] ∧ sessionObj exC27End 7 8 = none ∧
    loggedInAt exC27End 7 ∧ reports exMechs exCrypto exOracle exC27End 1 8 CKA_VALUE exKeyBytes := by
  refine ⟨exMechs_noCounter, exMechs_ids, exMechs_regular, ⟨quietEnv, .rwUser, 6, by decide +kernel⟩, by decide +kernel,
    ⟨_, rfl, rfl, rfl⟩, exC27_leaves _, ⟨quietEnv, .rwUser, 6, by decide +kernel⟩, exC27_stands, by decide +kernel, exC27_logged, ?_⟩
  exact ⟨exEnv 0, ⟨CKA_VALUE, false, 16, List.replicate 16 9⟩, ⟨CKA_VALUE, false, 16, exKeyBytes⟩, rfl, rfl, by decide +kernel, rfl⟩

/-! ## What does not hold -/

/-- A token key with a chosen unique id: that of the data object with handle 8 of `exTwo`. -/
def exForgedTok : Template :=
  [.ofUlong CKA_VALUE_LEN 16, .mk' CKA_UNIQUE_ID [97, 104, 97], .ofBool CKA_DESTROYABLE true, .ofBool CKA_TOKEN true]

/-- Two data objects stored; the process starts again. -/
def exReopen : Trace := exTwo ++
  [(exEnv 9, .finalize), (exEnv 10, .initialize [(7, ⟨[CKM_AES_KEY_GEN], none, none⟩)]),
   (exEnv 11, .openSession 7 (CKF_RW_SESSION ||| CKF_SERIAL_SESSION)), (exEnv 12, .login 1 CKU_USER exPin)]

set_option maxRecDepth 20000 in
/-- The full property is false: C_GenerateKey takes CKA_UNIQUE_ID from its template and `store` replaces whatever is
stored under that id (`src/storage/format.rs`, `src/storage/sqlite.rs`), so of two data objects one is gone after it, although
nothing destroyed or changed it. -/
theorem C27_overwrite_violation : ∃ (M : Mechs) (C : Crypto) (O : Oracle) (tr : Trace) (e e₁ e₂ : Env) (h m n₁ n₂ n : Nat) (tm q : Template),
    quiet e ∧ quiet e₁ ∧ quiet e₂ ∧
    -- a search finds two objects
    (step M C O e₂ (step M C O e₁ (after M C O [] tr) (.sess h (.findInit q))).2 (.sess h (.find 5))).1 = .handles [n₁, n₂] ∧
    -- after C_GenerateKey it finds one
    (step M C O e (after M C O [] tr) (.op h (.generateKey m [] tm))).1 = .handle n ∧
    (step M C O e₂ (step M C O e₁ (step M C O e (after M C O [] tr) (.op h (.generateKey m [] tm))).2 (.sess h (.findInit q))).2
      (.sess h (.find 5))).1 = .handles [n₂] := by
  refine ⟨exMechs, exCrypto, exOracle, exReopen, exEnv 13, exEnv 14, exEnv 0, 1, CKM_AES_KEY_GEN, 7, 8, 7, exForgedTok,
    [.ofUlong CKA_CLASS CKO_DATA], fun _ => rfl, fun _ => rfl, fun _ => rfl, ?_, ?_, ?_⟩ <;> decide +kernel

end Kry
