import Verif.Proofs.Fetch
import Verif.Proofs.FetchQuiet
import Verif.Proofs.Gone

/-!
# What the object used by an operation has in common with what C_GetAttributeValue reports
-/

namespace Kry
open Spec

variable {M : Mechs} {C : Crypto} {O : Oracle}

/-- A reported value is the one of the object an operation gets. -/
theorem key_reports {s : St} (hi : Inv s) (ht : TInv s) {h n ty i : Nat} {v : Bytes} {e : Env} {sl : Slot}
    {x : Session} {o : Obj} (hr : reports M C O s h n ty v) (hp : plainTy ty)
    (hg : s.getSession h = .ok (i, sl, x)) (ho : sl.token.getObjectByHandle C e n = .ok o) :
    ∃ a, o.find ty = some a ∧ a.value = v := by
  obtain ⟨i', sl', x', e', hints, o', a, hm, hs, hx, hl, hin, _, hf, _, hval⟩ := reports_obj hi hr
  obtain ⟨_, hm', hs', hx'⟩ := getSession_ok hg
  rw [hm] at hm'; injection hm' with hm'; subst hm'
  rw [hs] at hs'; injection hs' with hs'; subst hs'
  unfold Token.getObjectByHandle at ho
  unfold Token.looked at hl
  cases hse : AMap.get sl'.token.sess n with
  | some p =>
    rw [hse] at ho hl
    injection hl with hl
    simp only at ho
    split at ho
    · cases ho
    · injection ho with ho
      rw [← ho, hl]; exact ⟨a, hf, hval⟩
  | none =>
    rw [hse] at ho hl
    simp only at ho hl
    split at ho
    · cases ho
    · rename_i o1 h1
      split at ho
      · cases ho
      · injection ho with ho
        subst ho
        have ok := ht.slots _ _ hs
        rw [fetch_agree ok h1 hl hp (.inr rfl) (.inl (mem_fetchHints hin))]
        exact ⟨a, hf, hval⟩

/-- The object class lists the attribute among those C_GetAttributeValue always shows. -/
def Factory.shows (F : Factory) (ty : Nat) : Bool :=
  match findF F.attrs ty with
  | some f => !f.is oaSensitive
  | none => false

theorem decodeRow_bool {t : Nat} {v : DbVal} {a : Attr} (hk : attrKind t = some .bool) (h : decodeRow t v = .ok a) :
    a.atype = .bool := by
  unfold decodeRow at h
  rw [hk] at h
  simp only at h
  split at h
  · injection h with h; rw [← h]; rfl
  · cases h

/-- Boolean attributes of the object an operation gets are stored as such. -/
theorem key_bool {s : St} (ht : TInv s) {h n ty i : Nat} {e : Env} {sl : Slot} {x : Session} {o : Obj} {a : Attr}
    (hp : plainTy ty) (hk : attrKind ty = some .bool) (hpr : proper s i n ty)
    (hg : s.getSession h = .ok (i, sl, x)) (ho : sl.token.getObjectByHandle C e n = .ok o)
    (hf : o.find ty = some a) : a.atype = .bool := by
  obtain ⟨_, _, h1, _⟩ := getSession_ok hg
  unfold Token.getObjectByHandle at ho
  cases hse : AMap.get sl.token.sess n with
  | some q =>
    rw [hse] at ho
    simp only at ho
    split at ho
    · cases ho
    · injection ho with ho; subst ho
      exact hpr q a (by unfold sessionObj; rw [h1]; exact hse) hf
  | none =>
    rw [hse] at ho
    simp only at ho
    split at ho
    · cases ho
    · rename_i o1 hfe
      split at ho
      · cases ho
      · injection ho with ho; subst ho
        obtain ⟨u, rows, _, _, _, _, hx⟩ := fetch_row (ht.slots _ _ h1) hfe
        have := hx _ hp (.inr rfl)
        split at this
        · rw [this] at hf; cases hf
        · obtain ⟨q, hq, hq2⟩ := this
          rw [hf] at hq2; injection hq2 with hq2; subst hq2
          exact decodeRow_bool hk hq

/-- What a successful C_XxxInit went through. -/
theorem initKey_ok {e : Env} {k : OpKind} {m : Nat} {p : Bytes} {key : Nat} {sig : Bytes} {x : Session} {t : Token}
    (h : (fnInitKey M C e k m p key sig x t).1 = .ok ()) :
    t.isInitialized = true ∧ ∃ o op, t.getObjectByHandle C (e.sub 0) key = .ok o ∧ checkAllowed m o = .ok () ∧
      mechWith M t m (opFlag k) = .ok () ∧ newOp M (e.sub 1) k m p (some o) sig = .ok op ∧
      (fnInitKey M C e k m p key sig x t).2 = x.setOp k op ((k == .sign || k == .dec) && o.alwaysAuth) := by
  unfold fnInitKey at h ⊢
  split at h
  · cases h
  split at h
  · cases h
  rename_i hc hi
  split at h
  · cases h
  rename_i o ho
  split at h
  · cases h
  rename_i ha
  split at h
  · cases h
  rename_i hm
  split at h
  · cases h
  rename_i op hn
  refine ⟨by simpa using hi, o, op, ho, ha, hm, hn, ?_⟩
  simp only [hc, if_neg hi, ho, ha, hm, hn]

def quietEnv : Env := ⟨fun _ => none, fun _ => [], fun _ => []⟩

/-- What the object used by an operation has, C_GetAttributeValue reports. -/
theorem reports_key {s : St} (ht : TInv s) {h n ty i : Nat} {e : Env} {sl : Slot}
    {x : Session} {o : Obj} {a : Attr} {F : Factory} (hg : s.getSession h = .ok (i, sl, x))
    (hti : sl.token.isInitialized = true)
    (ho : sl.token.getObjectByHandle C e n = .ok o) (hf : o.find ty = some a) (hp : plainTy ty)
    (hlen : a.value.length < CK_UNAVAILABLE_INFORMATION) (hty : ty < 2 ^ 32)
    (hF : objFactory o = .ok F) (hsh : F.shows ty = true) : reports M C O s h n ty a.value := by
  obtain ⟨_, hm, hs, hx⟩ := getSession_ok hg
  have ok := ht.slots _ _ hs
  have key : ∀ o', o'.find ty = some a → objFactory o' = .ok F →
      getObjectAttributes o' [⟨ty, false, a.value.length, []⟩] = (.ok (), [⟨ty, false, a.value.length, a.value⟩]) := by
    intro o' hf' hF'
    unfold getObjectAttributes
    extract_lets sens
    rw [hF']
    simp only [getLoop, getOne]
    unfold Factory.shows at hsh
    cases hff : findF F.attrs ty with
    | none => rw [hff] at hsh; cases hsh
    | some f =>
      rw [hff] at hsh
      simp only [Bool.not_eq_true'] at hsh
      simp only [hsh, Bool.and_false, Bool.false_eq_true, if_false, hf']
      rw [if_neg (by omega), if_neg (by omega)]
      simp
  have fin : ∀ o', sl.token.looked C quietEnv n ([ty] ++ (if sl.token.loggedIn then [] else [CKA_TOKEN, CKA_PRIVATE])) =
      .ok o' → o'.find ty = some a → objFactory o' = .ok F →
      (sl.token.loggedIn = false → o'.isToken = true → o'.isPrivate = true → False) → reports M C O s h n ty a.value := by
    intro o' hl hf' hF' hn
    refine ⟨quietEnv, ⟨ty, false, a.value.length, []⟩, ⟨ty, false, a.value.length, a.value⟩, rfl, rfl, ?_, by simp⟩
    unfold step
    simp only [hg, sessStep]
    rw [if_neg (by simp [hti])]
    have : sl.token.getObjectAttrs C quietEnv n [⟨ty, false, a.value.length, []⟩] =
        (.ok (), [⟨ty, false, a.value.length, a.value⟩]) := by
      unfold Token.getObjectAttrs
      unfold Token.looked at hl
      simp only [List.map_cons, List.map_nil]
      have go : ¬ (!sl.token.loggedIn && o'.isToken && o'.isPrivate) = true := by
        intro hc
        simp only [Bool.and_eq_true, Bool.not_eq_true'] at hc
        exact hn hc.1.1 hc.1.2 hc.2
      cases hse : AMap.get sl.token.sess n with
      | some p =>
        rw [hse] at hl
        injection hl with hl; subst hl
        simp only
        rw [if_neg go, key p hf' hF']
      | none =>
        rw [hse] at hl
        simp only at hl ⊢
        rw [hl]
        simp only
        rw [if_neg go, key o' hf' hF']
    rw [this]
  unfold Token.getObjectByHandle at ho
  cases hse : AMap.get sl.token.sess n with
  | some p =>
    rw [hse] at ho
    simp only at ho
    split at ho
    · cases ho
    · rename_i hc
      injection ho with ho; subst ho
      refine fin p (by unfold Token.looked; rw [hse]) hf hF ?_
      intro h1 h2 h3
      rw [h1, h2, h3] at hc; exact hc rfl
  | none =>
    rw [hse] at ho
    simp only at ho
    split at ho
    · cases ho
    · rename_i o1 h1
      split at ho
      · cases ho
      · rename_i hc
        injection ho with ho; subst ho
        have hq : quiet quietEnv := fun _ => rfl
        have hh : ∀ t ∈ fetchHints ([ty] ++ (if sl.token.loggedIn then [] else [CKA_TOKEN, CKA_PRIVATE])), t < 2 ^ 32 := by
          intro t htm
          have : t = ty ∨ t ∈ [CKA_TOKEN, CKA_PRIVATE, CKA_CLASS, CKA_KEY_TYPE, CKA_CERTIFICATE_TYPE, CKA_SENSITIVE,
              CKA_EXTRACTABLE] := by
            unfold fetchHints at htm
            rw [if_neg (by simp)] at htm
            have am : ∀ {l : List Nat} {u t : Nat}, t ∈ addMissing l u → t ∈ l ∨ t = u := by
              intro l u t h
              unfold addMissing at h
              split at h
              · exact .inl h
              · simpa using h
            rcases am htm with htm | rfl
            · rcases am htm with htm | rfl
              · rcases am htm with htm | rfl
                · rcases am htm with htm | rfl
                  · rcases am htm with htm | rfl
                    · rcases List.mem_append.1 htm with h | h
                      · left; simpa using h
                      · right
                        split at h
                        · cases h
                        · exact List.mem_append_left [CKA_CLASS, CKA_KEY_TYPE, CKA_CERTIFICATE_TYPE, CKA_SENSITIVE,
                            CKA_EXTRACTABLE] h
                    · exact .inr (by simp)
                  · exact .inr (by simp)
                · exact .inr (by simp)
              · exact .inr (by simp)
            · exact .inr (by simp)
          rcases this with rfl | hm
          · exact hty
          · exact (by decide : ∀ t ∈ [CKA_TOKEN, CKA_PRIVATE, CKA_CLASS, CKA_KEY_TYPE, CKA_CERTIFICATE_TYPE,
              CKA_SENSITIVE, CKA_EXTRACTABLE], t < 2 ^ 32) t hm
        obtain ⟨o', ho', hFo⟩ := fetch_sub hq ok hh h1
        have tyin : ty ∈ fetchHints ([ty] ++ (if sl.token.loggedIn then [] else [CKA_TOKEN, CKA_PRIVATE])) :=
          mem_fetchHints (by simp)
        refine fin o' (by unfold Token.looked; rw [hse]; exact ho') ?_ (hFo.trans hF) ?_
        · rw [fetch_agree ok ho' h1 hp (.inl tyin) (.inr rfl), hf]
        · intro hl h2 h3
          have a1 : o'.find CKA_TOKEN = o1.find CKA_TOKEN :=
            fetch_agree ok ho' h1 plain_token (.inl (mem_fetchHints (by simp [hl]))) (.inr rfl)
          have a2 : o'.find CKA_PRIVATE = o1.find CKA_PRIVATE :=
            fetch_agree ok ho' h1 plain_private (.inl (mem_fetchHints (by simp [hl]))) (.inr rfl)
          unfold Obj.isToken Obj.boolOr at h2
          unfold Obj.isPrivate Obj.boolOr at h3
          rw [a1] at h2
          rw [a2] at h3
          apply hc
          rw [hl]
          unfold Obj.isToken Obj.boolOr Obj.isPrivate Obj.boolOr
          rw [h2, h3]
          rfl

end Kry
