import Verif.Props.C14Life
import Verif.Props.C25

/-!
# C24: wrapping obeys the key policy

`C24_output`: when C_WrapKey answers anything but an error, the wrapped key says CKA_EXTRACTABLE, the wrapping key
permits CKA_WRAP and the mechanism, and if the wrapped key says CKA_WRAP_WITH_TRUSTED the wrapping key says
CKA_TRUSTED.  `C24_forever`, `C24_token_forever`: once a key says CKA_EXTRACTABLE is false, every later C_WrapKey of it
is refused, as long as its handle lives or, for a token key, for ever, if the token does not merge duplicates
(`objects_dedup`).  `C24_dedup_violation`: with `objects_dedup = "All"` a C_CreateObject makes the key extractable
again.
-/

namespace Kry
open Spec

section
variable {M : Mechs} {C : Crypto} {O : Oracle}

theorem plain_extractable : plainTy CKA_EXTRACTABLE := plain_of (by decide) (by decide +kernel)
theorem plain_wwt : plainTy CKA_WRAP_WITH_TRUSTED := plain_of (by decide) (by decide +kernel)
theorem plain_trusted : plainTy CKA_TRUSTED := plain_of (by decide) (by decide +kernel)

/-- Two readings of one stored object agree on its class. -/
theorem fetch_class {e e' : Env} {s : Store} {h : Handles} {n : Nat} {hints hints' : List Nat} {o o' : Obj}
    (ok : TblOk s.db.objs) (h1 : s.fetch C e h n hints = .ok o) (h2 : s.fetch C e' h n hints' = .ok o')
    (hi : CKA_CLASS ∈ fetchHints hints ∨ hints = []) (hi' : CKA_CLASS ∈ fetchHints hints' ∨ hints' = []) :
    o.find CKA_CLASS = o'.find CKA_CLASS := by
  have key : ∀ {e : Env} {hints : List Nat} {o : Obj}, s.fetch C e h n hints = .ok o →
      (CKA_CLASS ∈ fetchHints hints ∨ hints = []) →
      ∃ u rows, h.get n = some u ∧ rowsOf s.db.objs u = some rows ∧
        match AMap.get rows CKA_CLASS with
        | none => o.find CKA_CLASS = (Obj.new CK_UNAVAILABLE_INFORMATION).find CKA_CLASS
        | some v => ∃ a, decodeRow CKA_CLASS v = .ok a ∧ o.find CKA_CLASS = some a := by
    intro e hints o hf hi
    unfold Store.fetch at hf
    split at hf
    · cases hf
    · rename_i u hu
      split at hf
      · cases hf
      · rename_i o1 h1
        obtain ⟨r, hr, hn, hg, hd⟩ := fetchByUid_ok ok h1
        split at hf
        · cases hf
        · rename_i F hF
          extract_lets dec at hf
          rcases h2 : dec with r | o2
          · simp only [h2] at hf; cases hf
          · simp only [h2] at hf
            injection hf with hf
            refine ⟨u, r, hu, hr, ?_⟩
            have e2 : o.find CKA_CLASS = o1.find CKA_CLASS := by
              rw [← hf]
              show o2.find CKA_CLASS = _
              simp only [dec] at h2
              split at h2
              · exact decryptLoop_find h2 (class_plain hF)
              · injection h2 with h2; rw [h2]
            rw [e2]
            have := decodeRows_find (nodup_pick hn) hd CKA_CLASS
            have hi' : fetchHints hints = [] ∨ CKA_CLASS ∈ fetchHints hints := by
              rcases hi with hi | hi
              · exact .inr hi
              · left; rw [hi]; rfl
            rw [get_pick hn, if_pos hi'] at this
            exact this
  obtain ⟨u, r, hu, hr, hx⟩ := key h1 hi
  obtain ⟨u', r', hu', hr', hx'⟩ := key h2 hi'
  rw [hu] at hu'; injection hu' with hu'; subst hu'
  rw [hr] at hr'; injection hr' with hr'; subst hr'
  cases hg : AMap.get r CKA_CLASS with
  | none => rw [hg] at hx hx'; rw [hx, hx']
  | some v =>
    rw [hg] at hx hx'
    obtain ⟨a, h1, h2⟩ := hx
    obtain ⟨b, h3, h4⟩ := hx'
    rw [h1] at h3; injection h3 with h3
    rw [h2, h4, h3]

/-- The class of the object an operation gets is the one reported. -/
theorem key_class {s : St} (hi : Inv s) (ht : TInv s) {h n i : Nat} {v : Bytes} {e : Env} {sl : Slot}
    {x : Session} {o : Obj} (hr : reports M C O s h n CKA_CLASS v)
    (hg : s.getSession h = .ok (i, sl, x)) (ho : sl.token.getObjectByHandle C e n = .ok o) :
    ∃ a, o.find CKA_CLASS = some a ∧ a.value = v := by
  obtain ⟨i', sl', x', e', hints, o', a, hm, hs, hx, hl, hin, _, hf, _, hval⟩ := reports_obj hi hr
  obtain ⟨_, hm', hs', hx'⟩ := getSession_ok hg
  rw [hm] at hm'; injection hm' with hm'; subst hm'
  rw [hs] at hs'; injection hs' with hs'; subst hs'
  unfold Token.getObjectByHandle at ho
  unfold Token.looked at hl
  cases hse : AMap.get sl'.token.sess n with
  | some p =>
    rw [hse] at ho hl
    injection hl with hl
    simp only at ho
    split at ho
    · cases ho
    · injection ho with ho
      rw [← ho, hl]; exact ⟨a, hf, hval⟩
  | none =>
    rw [hse] at ho hl
    simp only at ho hl
    split at ho
    · cases ho
    · rename_i o1 h1
      split at ho
      · cases ho
      · injection ho with ho
        subst ho
        have ok := ht.slots _ _ hs
        rw [fetch_class ok h1 hl (.inr rfl) (.inl (mem_fetchHints hin))]
        exact ⟨a, hf, hval⟩

/-- The kinds of keys that can be wrapped. -/
def wrappable : FactoryKind → Bool
  | .genericSecret _ | .aes | .hotp | .rsaPriv | .ecPriv | .edPriv | .montPriv => true
  | _ => false

theorem wrappable_shows : ∀ F ∈ registry, wrappable F.2.kind = true →
    F.2.shows CKA_EXTRACTABLE = true ∧ Obj.secretClass F.1.1 = true := by decide +kernel

theorem secret_trusted : ∀ F ∈ registry, F.1.1 = CKO_SECRET_KEY → F.2.shows CKA_TRUSTED = true := by decide +kernel

/-- The class under which the factory was found. -/
theorem objFactory_at {o : Obj} {F : Factory} (h : objFactory o = .ok F) :
    ∃ cls kt, o.getUlong CKA_CLASS = .ok cls ∧ ((cls, kt), F) ∈ registry := by
  unfold objFactory at h
  split at h
  · cases h
  rename_i cls hc
  simp only at h
  split at h
  · cases h
  rename_i ty _
  exact ⟨cls, ty, hc, getFactory_mem h⟩

theorem orderly_getUlong {o : Obj} (h : Orderly o) : o.getUlong CKA_CLASS = .ok o.cls := by
  obtain ⟨a, h1, h2⟩ := h.cls
  unfold Obj.getUlong
  rw [h1]; exact h2

theorem checkKeyOps_op {o : Obj} {cls kt op : Nat} (h : o.checkKeyOps cls kt op = .ok ()) : o.getBool op = .ok true := by
  unfold Obj.checkKeyOps at h
  split at h
  · cases h
  split at h
  · cases h
  extract_lets k at h
  clear_value k
  split at h
  · cases h
  split at h
  · assumption
  all_goals cases h

theorem boolOr_false {o : Obj} {ty : Nat} (h : o.boolOr ty false = true) : o.getBool ty = .ok true := by
  unfold Obj.boolOr at h
  unfold Obj.getBool
  cases hf : o.find ty with
  | none => rw [hf] at h; cases h
  | some a =>
    rw [hf] at h
    simp only at h ⊢
    split at h
    · rename_i b hb
      rw [hb, h]
    · cases h

/-- What is exported is extractable. -/
theorem export_ok {F : Factory} {o : Obj} {b : Bytes} (hz : Orderly o) (hF : objFactory o = .ok F)
    (h : exportForWrapping M F o = .ok b) : wrappable F.kind = true ∧ o.getBool CKA_EXTRACTABLE = .ok true := by
  have sec : wrappable F.kind = true → exportSecret o = .ok b → o.getBool CKA_EXTRACTABLE = .ok true := by
    intro hw hs
    unfold exportSecret at hs
    split at hs
    · cases hs
    rename_i he
    obtain ⟨cls, kt, hc, hm⟩ := objFactory_at hF
    rw [orderly_getUlong hz] at hc
    injection hc with hc
    have := (wrappable_shows _ hm hw).2
    unfold Obj.isExtractable at he
    rw [hc, this] at he
    simp only [if_true, Bool.not_eq_true', Bool.not_eq_false] at he
    exact boolOr_false he
  unfold exportForWrapping at h
  split at h
  · rename_i hk; have hw : wrappable F.kind = true := by rw [hk]; rfl
    exact ⟨hw, sec hw h⟩
  · rename_i hk; have hw : wrappable F.kind = true := by rw [hk]; rfl
    exact ⟨hw, sec hw h⟩
  · rename_i hk; have hw : wrappable F.kind = true := by rw [hk]; rfl
    exact ⟨hw, sec hw h⟩
  · rename_i hk
    split at h
    · cases h
    · rename_i hc
      exact ⟨by rw [hk]; rfl, checkKeyOps_op hc⟩
  · rename_i hk
    split at h
    · cases h
    · rename_i hc
      exact ⟨by rw [hk]; rfl, checkKeyOps_op hc⟩
  · rename_i hk
    split at h
    · cases h
    · rename_i hc
      exact ⟨by rw [hk]; rfl, checkKeyOps_op hc⟩
  · rename_i hk
    split at h
    · cases h
    · rename_i hc
      exact ⟨by rw [hk]; rfl, checkKeyOps_op hc⟩
  · split at h <;> cases h

/-- The object an operation gets is orderly. -/
theorem orderly_byHandle {s : St} (ht : TInv s) (hn : OInv s) {i n : Nat} {e : Env} {sl : Slot} {o : Obj}
    (hs : AMap.get s.slots i = some sl) (ho : sl.token.getObjectByHandle C e n = .ok o) : Orderly o := by
  unfold Token.getObjectByHandle at ho
  cases hse : AMap.get sl.token.sess n with
  | some q =>
    rw [hse] at ho
    simp only at ho
    split at ho
    · cases ho
    · injection ho with ho; subst ho
      exact hn i sl hs n q hse
  | none =>
    rw [hse] at ho
    simp only at ho
    split at ho
    · cases ho
    · rename_i o1 hfe
      split at ho
      · cases ho
      · injection ho with ho; subst ho
        exact orderly_fetch (ht.slots _ _ hs) hfe

/-- What a C_WrapKey that was not refused went through. -/
theorem wrap_ok {e : Env} {m : Nat} {p : Bytes} {wkey key : Nat} {out : Option Nat} {t : Token}
    (h : refusal (fnWrap M C e m p wkey key out t) = false) :
    t.isInitialized = true ∧ ∃ k w F b, t.getObjectByHandle C (e.sub 0) key = .ok k ∧
      t.getObjectByHandle C (e.sub 1) wkey = .ok w ∧ objFactory k = .ok F ∧
      (k.getBool CKA_WRAP_WITH_TRUSTED = .ok true → w.getBool CKA_TRUSTED = .ok true) ∧
      exportForWrapping M F k = .ok b := by
  unfold fnWrap at h
  split at h
  · cases h
  rename_i hin
  split at h
  · cases h
  rename_i k hk
  split at h
  · cases h
  rename_i w hw
  split at h
  · cases h
  split at h
  · cases h
  rename_i F hF
  split at h
  · cases h
  split at h
  · cases h
  · cases h
  extract_lets trust at h
  rcases htr : trust with r | u
  · rw [htr] at h; cases h
  · rw [htr] at h
    simp only at h
    split at h
    · cases h
    rename_i b hb
    refine ⟨by simpa using hin, k, w, F, b, hk, hw, hF, ?_, hb⟩
    intro hwt
    simp only [trust, hwt] at htr
    split at htr
    · cases htr
    · assumption
    · cases htr

end

variable (M : Mechs) (C : Crypto) (O : Oracle)

/-- **C24**: C_WrapKey, whether it wraps or only tells the length, needs a key that says CKA_EXTRACTABLE and, if that key
says CKA_WRAP_WITH_TRUSTED, a trusted wrapping key: one that reports CKA_TRUSTED as true if it reports it at all, which a
secret key of a supported type does. -/
theorem C24_output (hM : OrderlyMechs M) (d : List (Nat × Db)) (hd : ∀ p ∈ d, TblOk p.2.objs) (tr : Trace) (e : Env)
    (h i wkey key m : Nat) (p : Bytes) (out : Option Nat) (hs : onSlot M C O (after M C O d tr) h i)
    (hok : refusal (step M C O e (after M C O d tr) (.op h (.wrap m p wkey key out))).1 = false) :
    saysTrue M C O (after M C O d tr) h key CKA_EXTRACTABLE ∧
    offers M (after M C O d tr) i m CKF_WRAP ∧ permits M C O (after M C O d tr) h wkey m ∧
    notFalse M C O (after M C O d tr) h wkey CKA_WRAP ∧
    (saysTrue M C O (after M C O d tr) h key CKA_WRAP_WITH_TRUSTED →
      notFalse M C O (after M C O d tr) h wkey CKA_TRUSTED ∧
      ∀ kt < 2 ^ 64, reports M C O (after M C O d tr) h wkey CKA_CLASS (ulongBytes CKO_SECRET_KEY) →
        reports M C O (after M C O d tr) h wkey CKA_KEY_TYPE (ulongBytes kt) →
        (∃ F, getFactory CKO_SECRET_KEY kt = .ok F) →
        saysTrue M C O (after M C O d tr) h wkey CKA_TRUSTED) := by
  have c25 := C25_wrap d hd tr e h i wkey key m p out hs hok
  have hi : Inv (after M C O d tr) := inv_reach M O d tr
  have ht : TInv (after M C O d tr) := tinv_reach M O hd tr
  have hn : OInv (after M C O d tr) := oinv_reach hM hd tr
  generalize after M C O d tr = s at *
  obtain ⟨sl, x, hg, h1, h2⟩ := getSession_live hi ((onSlot_iff hi).1 hs)
  have hw : refusal (fnWrap M C e m p wkey key out sl.token) = false := by
    unfold step at hok
    simpa only [hg, opStep] using hok
  obtain ⟨hin, k, w, F, b, hk, hw, hF, htr, hx⟩ := wrap_ok hw
  have zk := orderly_byHandle ht hn h1 hk
  have zw := orderly_byHandle ht hn h1 hw
  obtain ⟨hwr, hex⟩ := export_ok zk hF hx
  obtain ⟨cls, kt, _, hreg⟩ := objFactory_at hF
  refine ⟨saysTrue_of ht plain_extractable (by decide) hg hin hk hex hF (wrappable_shows _ hreg hwr).1,
    c25.1, c25.2.1, c25.2.2, ?_⟩
  rintro ⟨b1, hb1, hr1⟩
  have hkt : k.getBool CKA_WRAP_WITH_TRUSTED = .ok true := by
    obtain ⟨a, hf, hv⟩ := key_reports hi ht hr1 plain_wwt hg hk
    obtain ⟨bb, hbb⟩ := (zk.neat a (find_mem hf)).1 (by rw [find_typ hf]; decide +kernel)
    unfold Obj.getBool
    rw [hf]
    rw [hbb] at hv ⊢
    cases bb
    · have : b1 = 0 := by simpa [Attr.ofBool] using hv.symm
      exact absurd this hb1
    · rfl
  have hwt := htr hkt
  refine ⟨notFalse_of hi ht plain_trusted hg hw hwt, ?_⟩
  intro kt hlt hcl hty ⟨F', hF'⟩
  have num : ∀ {ty v a}, attrKind ty = some .num → v < 2 ^ 64 → w.find ty = some a → a.value = ulongBytes v →
      w.getUlong ty = .ok v := by
    intro ty v a hk hv hf hval
    have := (zw.neat a (find_mem hf)).2 (by rw [find_typ hf]; exact hk)
    unfold Obj.getUlong
    rw [hf]
    simp only [Attr.toUlong, this.1, hval]
    simp [ulongBytes, fromLE_toLE, hv]
  obtain ⟨a1, hf1, hv1⟩ := key_class hi ht hcl hg hw
  obtain ⟨a2, hf2, hv2⟩ := key_reports hi ht hty plain_keyType hg hw
  have e1 := num (by decide +kernel) (by decide) hf1 hv1
  have e2 := num (by decide +kernel) hlt hf2 hv2
  have hFw := (objFactory_key (by decide) (by decide) e1 e2).trans hF'
  exact saysTrue_of ht plain_trusted (by decide) hg hin hw hwt hFw (secret_trusted _ (getFactory_mem hF') rfl)

/-- **C24**, second sentence: a key that once said it was unextractable is refused by every later C_WrapKey on its handle,
on every path that does not leave the library or re-initialise the token, and does not merge duplicates. -/
theorem C24_forever (hM : OrderlyMechs M) (d : List (Nat × Db)) (hd : ∀ p ∈ d, TblOk p.2.objs) (tr₁ tr₂ : Trace)
    (hm : ∀ p ∈ tr₁, noMerge p.2) (i key h h' wkey m : Nat) (p : Bytes) (out : Option Nat) (e : Env)
    (hs : onSlot M C O (after M C O d tr₁) h i)
    (hr : reports M C O (after M C O d tr₁) h key CKA_EXTRACTABLE (bbool false))
    (hc : ∀ q ∈ tr₂, calm i q.2 = true) (hs' : onSlot M C O (after M C O d (tr₁ ++ tr₂)) h' i) :
    refusal (step M C O e (after M C O d (tr₁ ++ tr₂)) (.op h' (.wrap m p wkey key out))).1 = true := by
  rcases hx : refusal (step M C O e (after M C O d (tr₁ ++ tr₂)) (.op h' (.wrap m p wkey key out))).1 with _ | _
  · obtain ⟨b, hb, hr'⟩ := (C24_output M C O hM d hd _ e h' i wkey key m p out hs' hx).1
    have := C14_handle M C O hM d hd tr₁ tr₂ hm i key h h' (CKA_EXTRACTABLE, false) (by decide) hs hr hc hs' _ hr'
    exact absurd (by simpa [bbool] using this) hb
  · rfl

/-- **C24**, second sentence, for token keys: for ever, across restarts, known by CKA_UNIQUE_ID. -/
theorem C24_token_forever (hM : OrderlyMechs M) (hM' : HonoursId M) (d : List (Nat × Db))
    (hd : ∀ p ∈ d, TblOk p.2.objs) (tr₁ tr₂ : Trace)
    (hm : ∀ p ∈ tr₁ ++ tr₂, noMerge p.2) (i key key' h h' wkey m : Nat) (u p : Bytes) (out : Option Nat) (e : Env)
    (hs : onSlot M C O (after M C O d tr₁) h i) (htok : sessionObj (after M C O d tr₁) i key = none)
    (hid : reports M C O (after M C O d tr₁) h key CKA_UNIQUE_ID u)
    (hr : reports M C O (after M C O d tr₁) h key CKA_EXTRACTABLE (bbool false))
    (hdraw : ∀ q ∈ tr₂, ∀ r, q.1.uuid r ≠ u) (hask : ∀ q ∈ tr₂, ¬ asksId q.2 u)
    (hs' : onSlot M C O (after M C O d (tr₁ ++ tr₂)) h' i)
    (htok' : sessionObj (after M C O d (tr₁ ++ tr₂)) i key' = none)
    (hid' : reports M C O (after M C O d (tr₁ ++ tr₂)) h' key' CKA_UNIQUE_ID u) :
    refusal (step M C O e (after M C O d (tr₁ ++ tr₂)) (.op h' (.wrap m p wkey key' out))).1 = true := by
  rcases hx : refusal (step M C O e (after M C O d (tr₁ ++ tr₂)) (.op h' (.wrap m p wkey key' out))).1 with _ | _
  · obtain ⟨b, hb, hr'⟩ := (C24_output M C O hM d hd _ e h' i wkey key' m p out hs' hx).1
    have := C14_token M C O hM' d hd tr₁ tr₂ hm i key key' h h' u (CKA_EXTRACTABLE, false) (by decide) hs htok hid hr
      hdraw hask hs' htok' hid' _ hr'
    exact absurd (by simpa [bbool] using this) hb
  · rfl

/-! ## A history -/

def exConf24 : List (Nat × TokCfg) := [(7, ⟨[CKM_AES_ECB, CKM_AES_KEY_GEN], none, none⟩)]

/-- A token key that is not extractable (8), an extractable key that wants a trusted wrapping key (9), a wrapping key
(10), an extractable key (11) and a trusted wrapping key, which only C_GenerateKey can make (12). -/
def exC24 : Trace := (exEnv 0, .initialize exConf24) :: exC14Life.drop 1 ++
  [(exEnv 9, .sess 1 (.createObject (exAesWith [.ofBool CKA_WRAP true]))),
   (exEnv 10, .sess 1 (.createObject (exAesWith [.ofBool CKA_EXTRACTABLE true]))),
   (exEnv 11, .op 1 (.generateKey CKM_AES_KEY_GEN [] (exAesIn ++ [.ofUlong CKA_VALUE_LEN 16, .ofBool CKA_WRAP true,
     .ofBool CKA_TRUSTED true])))]

set_option maxRecDepth 10000 in
/-- C_WrapKey of each of them: the hypothesis of `C24_output` holds in the last four. -/
example : (exOuts (exC24 ++ [(exEnv 12, .op 1 (.wrap CKM_AES_ECB [] 12 8 (some 100))),
     (exEnv 13, .op 1 (.wrap CKM_AES_ECB [] 10 9 (some 100))),
     (exEnv 14, .op 1 (.wrap CKM_AES_ECB [] 11 11 (some 100))),
     (exEnv 15, .op 1 (.wrap CKM_AES_ECB [] 10 11 (some 100))),
     (exEnv 16, .op 1 (.wrap CKM_AES_ECB [] 10 11 none)),
     (exEnv 17, .op 1 (.wrap CKM_AES_ECB [] 12 9 none)),
     (exEnv 18, .op 1 (.wrap CKM_AES_ECB [] 12 9 (some 100)))])).drop 7 =
   [.handle 8, .handle 9, .handle 10, .handle 11, .handle 12,
    .err .keyUnextractable, .err .wrappingKeyHandleInvalid, .err .wrappingKeyHandleInvalid,
    .bytes exKeyBytes, .size 16, .size 16, .bytes exKeyBytes] := by decide +kernel

set_option maxRecDepth 10000 in
/-- The hypotheses of `C24_forever` for key 8 (those of `C24_token_forever` are the ones of `C14_token`). -/
example : onSlot exMechs exCrypto exOracle (exRun exC24) 1 7 ∧
    reports exMechs exCrypto exOracle (exRun exC24) 1 8 CKA_EXTRACTABLE (bbool false) ∧
    onSlot exMechs exCrypto exOracle (exRun (exC24 ++ [(exEnv 12, .sess 1 (.setAttr 8 [.ofBool CKA_EXTRACTABLE true]))]))
      1 7 :=
  ⟨⟨quietEnv, .rwUser, 6, by decide +kernel⟩,
   ⟨exEnv 0, ⟨CKA_EXTRACTABLE, false, 1, [9]⟩, ⟨CKA_EXTRACTABLE, false, 1, [0]⟩, rfl, rfl, by decide +kernel, rfl⟩,
   ⟨quietEnv, .rwUser, 6, by decide +kernel⟩⟩

/-! ## What does not hold -/

set_option maxRecDepth 10000 in
/-- **Counterexample**: with `objects_dedup = "All"` a key refused for being unextractable is wrapped after a C_CreateObject
with its CKA_ID (its value is then the one of the new template). -/
theorem C24_dedup_violation : ∃ (tr : Trace) (h n w : Nat) (e : Env) (tm : Template) (b : Bytes),
    (step exMechs exCrypto exOracle e (exRun tr) (.op h (.wrap CKM_AES_ECB [] w n (some 100)))).1 =
      .err .keyUnextractable ∧
    (step exMechs exCrypto exOracle e
      (step exMechs exCrypto exOracle e (exRun tr) (.sess h (.createObject tm))).2
      (.op h (.wrap CKM_AES_ECB [] w n (some 100)))).1 = .bytes b := by
  refine ⟨(exEnv 0, .initialize [(7, ⟨[CKM_AES_ECB, CKM_AES_KEY_GEN], none, some .all⟩)]) :: exC24.drop 1, 1, 8, 12,
    exEnv 13, exAesTemplate ++ [.ofBool CKA_TOKEN true, .ofBool CKA_EXTRACTABLE true, .mk' CKA_ID [5]], exKeyBytes,
    by decide +kernel, by decide +kernel⟩

/-- An RSA private key; `l` are further attributes. -/
def exRsa (x : UInt8) (l : Template) : Template :=
  [.ofUlong CKA_CLASS CKO_PRIVATE_KEY, .ofUlong CKA_KEY_TYPE CKK_RSA, .ofBool CKA_TOKEN true, .mk' CKA_ID [6],
   .mk' CKA_MODULUS (List.replicate 128 x), .mk' CKA_PUBLIC_EXPONENT [1, 0, 1], .mk' CKA_PRIVATE_EXPONENT [x]] ++ l

/-- A sensitive, unextractable RSA key with its primes, as object 8 of a slot that merges duplicates. -/
def exMergeRsa : Trace := (exEnv 0, .initialize exConfAll) :: exStart.drop 1 ++
  [(exEnv 6, .login 1 CKU_USER exPin), (exEnv 7, .sess 1 (.createObject (exRsa 1 [.mk' CKA_PRIME_1 [17],
     .mk' CKA_PRIME_2 [19], .ofBool CKA_SENSITIVE true, .ofBool CKA_EXTRACTABLE false])))]

set_option maxRecDepth 10000 in
/-- **Counterexample** to C13 over a run: with `objects_dedup = "All"`, C_CreateObject of another RSA key, without primes and
not sensitive, but with the CKA_ID of a sensitive one, leaves the primes of the old key in place and makes them readable.
(The comment in `src/token.rs:644-647` says the old data is wiped.) -/
theorem C13_dedup_violation : ∃ (tr : Trace) (h n : Nat) (e : Env) (tm : Template),
    reports exMechs exCrypto exOracle (exRun tr) h n CKA_SENSITIVE (bbool true) ∧
    reports exMechs exCrypto exOracle (exRun tr) h n CKA_EXTRACTABLE (bbool false) ∧
    (∀ c ∈ tm, c.typ ≠ CKA_PRIME_1) ∧
    reports exMechs exCrypto exOracle (step exMechs exCrypto exOracle e (exRun tr) (.sess h (.createObject tm))).2 h n
      CKA_PRIME_1 [17] := by
  refine ⟨exMergeRsa, 1, 8, exEnv 8, exRsa 2 [.ofBool CKA_SENSITIVE false, .ofBool CKA_EXTRACTABLE true], ?_, ?_,
    by decide, ?_⟩
  · exact ⟨exEnv 0, ⟨CKA_SENSITIVE, false, 1, [9]⟩, ⟨CKA_SENSITIVE, false, 1, [1]⟩, rfl, rfl, by decide +kernel, rfl⟩
  · exact ⟨exEnv 0, ⟨CKA_EXTRACTABLE, false, 1, [9]⟩, ⟨CKA_EXTRACTABLE, false, 1, [0]⟩, rfl, rfl, by decide +kernel, rfl⟩
  · exact ⟨exEnv 0, ⟨CKA_PRIME_1, false, 1, [9]⟩, ⟨CKA_PRIME_1, false, 1, [17]⟩, rfl, rfl, by decide +kernel, rfl⟩

end Kry
